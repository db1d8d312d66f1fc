import Verif.Proofs.PartsBRep
import Verif.Props.Parts
/-
C129, for BReps without model boundary.
-/
namespace Inspector
open Spec

/-- **C129** (BReps): a BRep made of two parts which have no component, unique vertex, relationship or place in common is
declared valid when, and only when, each of its parts, inspected in another execution, is.  Proved when the BRep has no model
boundary (with model boundaries it is false: `C129_brep_false`), when there are Blocks, meshed Blocks and empty Blocks in both
parts or in none (with Blocks in one part only it is false: `C129_blocks_false`), and when the inspection of the Lines reads every embedding. -/
theorem C129_brep_partial {P : Type} (lib : ModelLibrary P) (rt rt1 rt2 : ModelRuntime) (hrt : ModelRuntimeOk rt)
    (hrt1 : ModelRuntimeOk rt1) (hrt2 : ModelRuntimeOk rt2) (m m1 m2 : ModelData P) (ι1 ι2 : Index → Index)
    (h : MadeOf m m1 m2 ι1 ι2) (hp1 : IsBRepPart ι1 m1 m) (hp2 : IsBRepPart ι2 m2 m) (near : P → P → Prop)
    (far : FarApart lib (BRepTrianglesMeet lib.geometry) near m m1 m2) (hb : BlocksAlike m1 m2)
    (ha12 : BlocksApart lib m m1 m2) (ha21 : BlocksApart lib m m2 m1)
    (ho1 : m1.blocksOracle = m.blocksOracle) (ho2 : m2.blocksOracle = m.blocksOracle)
    (hno : m.blocksOracle.modelBoundaries = []) (hg : ReadsMeshOnly m.blocksOracle.geometry)
    (c c1 c2 : Candidates P) (ok : BRepOk lib rt m c) (ok1 : BRepOk lib rt1 m1 c1) (ok2 : BRepOk lib rt2 m2 c2)
    (hn : NumbersKnown m) (hn1 : NumbersKnown m1) (hn2 : NumbersKnown m2) (hs : UniqueVerticesNear lib near m)
    (hs1 : UniqueVerticesNear lib near m1) (hs2 : UniqueVerticesNear lib near m2) (hread : ¬ PlainUnreadable m) :
    ∃ v v1 v2 N, (∀ fuel ≥ N, isBRepOfValid lib rt fuel m = .ok v) ∧ (∀ fuel ≥ N, isBRepOfValid lib rt1 fuel m1 = .ok v1) ∧
      (∀ fuel ≥ N, isBRepOfValid lib rt2 fuel m2 = .ok v2) ∧ (v.isValid = true ↔ v1.isValid = true ∧ v2.isValid = true) := by
  obtain ⟨v, N, e, hv, -, -⟩ := C99_brep_partial lib rt hrt m c ok
  obtain ⟨v1, N1, e1, hv1, -, -⟩ := C99_brep_partial lib rt1 hrt1 m1 c1 ok1
  obtain ⟨v2, N2, e2, hv2, -, -⟩ := C99_brep_partial lib rt2 hrt2 m2 c2 ok2
  have hempty1 : (∃ b ∈ m.blocks, b.nbPolyhedra = 0) ↔ ∃ b ∈ m1.blocks, b.nbPolyhedra = 0 := by
    constructor
    · rintro ⟨b, hbm, h0⟩
      rcases h.blocks b hbm with hb1 | hb2
      · exact ⟨b, hb1, h0⟩
      · exact hb.empty.2 ⟨b, hb2, h0⟩
    · exact fun ⟨b, hb1, h0⟩ => ⟨b, hp1.blocks b hb1, h0⟩
  have hempty2 : (∃ b ∈ m.blocks, b.nbPolyhedra = 0) ↔ ∃ b ∈ m2.blocks, b.nbPolyhedra = 0 := hempty1.trans hb.empty
  have s1 : Parts.BRepSetting lib rt rt1 near ι1 m m1 := ⟨hp1, ok.meshes, ok1.meshes, ok.types, ok1.types, hn.noId, hn1,
    ok1.topology, ok1.around, ok.coherent, ok1.coherent, hs, hs1, hempty1, ho1, hno, hg, fun s hsm b hbm hid =>
      (h.blocks b hbm).elim (fun hb1 => absurd (.inr (.inr (.inr ⟨b, hb1, rfl⟩))) hid) fun hb2 => ha12.inside s hsm b hb2⟩
  have s2 : Parts.BRepSetting lib rt rt2 near ι2 m m2 := ⟨hp2, ok.meshes, ok2.meshes, ok.types, ok2.types, hn.noId, hn2,
    ok2.topology, ok2.around, ok.coherent, ok2.coherent, hs, hs2, hempty2, ho2, hno, hg, fun s hsm b hbm hid =>
      (h.blocks b hbm).elim (fun hb1 => ha21.inside s hsm b hb1) fun hb2 => absurd (.inr (.inr (.inr ⟨b, hb2, rfl⟩))) hid⟩
  refine ⟨v, v1, v2, max N (max N1 N2), fun fuel hf => e fuel (by omega), fun fuel hf => e1 fuel (by omega),
    fun fuel hf => e2 fuel (by omega), ?_⟩
  rw [hv hread, hv1 fun hr => hread (s1.unreadable hr), hv2 fun hr => hread (s2.unreadable hr), ← not_or, not_iff_not]
  exact ⟨Parts.brep_part_of_whole h far hb ha12 ha21 s1 s2 ok1.firstEdges ok2.firstEdges,
    fun hd => hd.elim (s1.whole_of_part ok1.firstEdges) (s2.whole_of_part ok2.firstEdges)⟩

theorem Parts.noEmbedding {d : TopologyData} {scale : Nat → Nat} {sign : Sign} (h : d.internal = []) (id : Uuid) :
    (exampleModel d scale sign).embeddings id = [] := by
  show d.toModel.embeddings id = []
  rw [List.eq_nil_iff_forall_not_mem]
  intro e he
  exact absurd (TopologyData.mem_select.1 he) (by simp [h])

theorem Parts.blocksApart {d d1 d2 : TopologyData} {scale scale1 scale2 : Nat → Nat} {sign : Sign} (h : d.internal = []) :
    BlocksApart modelLibrary (exampleModel d scale sign) (exampleModel d1 scale1 sign) (exampleModel d2 scale2 sign) where
  inside _ _ _ _ := rfl
  edges l _ _ hemb := by
    obtain ⟨c, hc, _⟩ := hemb
    rw [Parts.noEmbedding h] at hc
    exact absurd hc List.not_mem_nil

theorem Parts.meshOnly : ReadsMeshOnly noGeometry := fun _ _ _ _ _ _ => rfl

set_option maxRecDepth 20000 in
theorem Parts.twoTetrahedra_readable : ¬ PlainUnreadable (exampleModel twoTetrahedra (10 * ·) .positive) := by
  rw [← Plain.unreadable_iff twoTetrahedra_ok.meshes modelRuntime]
  exact C68_surfaces_readable _ twoTetrahedra_ok.topology fun id _ e he => absurd he List.not_mem_nil

set_option maxRecDepth 100000 in
set_option maxHeartbeats 4000000 in
theorem Parts.tetrahedron_sound (n : Nat) : isBRepOfValid modelLibrary modelRuntime (n + 50)
    (exampleModel tetrahedronBRep (10 * ·) .positive) = .ok {} := by rfl

set_option maxRecDepth 100000 in
set_option maxHeartbeats 4000000 in
theorem Parts.otherTetrahedron_sound (n : Nat) : isBRepOfValid modelLibrary modelRuntime (n + 50)
    (exampleModel otherTetrahedron (fun n => 10 * (n + tetrahedronBRep.vertices.length)) .positive) = .ok {} := by rfl

set_option maxRecDepth 20000 in
/-- the hypotheses are met by two tetrahedra, and the BRep made of both is valid since each of them is -/
example : ∃ v N, (∀ fuel ≥ N, isBRepOfValid modelLibrary modelRuntime fuel (exampleModel twoTetrahedra (10 * ·) .positive) =
    .ok v) ∧ v.isValid = true := by
  have h1 : Parts.Ignores tetrahedronBRep otherTetrahedron := by decide +kernel
  have h2 : Parts.Ignores otherTetrahedron tetrahedronBRep := by decide +kernel
  have h3 : Parts.AllLinkedData otherTetrahedron := by decide +kernel
  obtain ⟨v, v1, v2, N, e, e1, e2, hv⟩ := C129_brep_partial modelLibrary modelRuntime modelRuntime modelRuntime modelRuntime_ok
    modelRuntime_ok modelRuntime_ok _ _ _ _ _ (Parts.madeOf (10 * ·) .positive h1 h2 h3)
    (Parts.first (10 * ·) .positive h1 h2) (Parts.second (10 * ·) .positive h1 h2 h3) (fun _ _ => False)
    (Parts.apart (10 * ·) .positive _ Parts.brepApart h1 h2 (by decide +kernel) (by decide +kernel))
    ⟨by decide +kernel, by decide +kernel, by decide +kernel⟩
    (Parts.blocksApart rfl) (Parts.blocksApart rfl) rfl rfl rfl Parts.meshOnly _ _ _ twoTetrahedra_ok
    (tetrahedronBRep_ok .positive) (otherTetrahedron_ok _ rfl)
    (Parts.numbersKnown _ _ _ (by decide)) (Parts.numbersKnown _ _ _ (by decide)) (Parts.numbersKnown _ _ _ (by decide))
    (example_near _) (example_near _) (example_near _) Parts.twoTetrahedra_readable
  refine ⟨v, N, e, hv.2 ⟨?_, ?_⟩⟩
  · have := (Parts.tetrahedron_sound N).symm.trans (e1 (N + 50) (by omega))
    injection this with this
    rw [← this]; rfl
  · have := (Parts.otherTetrahedron_sound N).symm.trans (e2 (N + 50) (by omega))
    injection this with this
    rw [← this]; rfl

/-! ### Blocks in one part only -/

/-- The faces of a tetrahedron, without Block. -/
def hollowTetrahedron : TopologyData := Parts.otherIds 100
  { tetrahedronBRep with
    blocks := []
    blockEdges := []
    blockPolygons := []
    vertices := tetrahedronBRep.vertices.map fun l => l.dropLast
    boundary := tetrahedronBRep.boundary.filter fun e => decide (e.2.type ≠ .block) }

def tetrahedronBesideHollow : TopologyData := Parts.beside tetrahedronBRep hollowTetrahedron

set_option maxRecDepth 20000 in
theorem hollowTetrahedron_ok (scale : Nat → Nat) (hs : scale = fun n => 10 * (n + tetrahedronBRep.vertices.length)) :
    BRepOk modelLibrary modelRuntime (exampleModel hollowTetrahedron scale .positive) noCandidate where
  meshesKnown := MeshesOk.toMeshesKnown (exampleModel_meshes _ _ _ (by decide +kernel))
  blockWalks := MeshesOk.blockWalks (exampleModel_meshes _ _ _ (by decide +kernel))
  types := exampleModel_types _ _ _ _ (by decide +kernel)
  trees := exampleModel_trees _ _ _ _ (by subst hs; decide +kernel)
  nbModelEdges := by subst hs; decide +kernel
  topology := exampleModel_wf _ _ _ _ (by decide +kernel) (by decide +kernel) (by decide +kernel)
  around := by
    have aw := hollowTetrahedron.aw_of_check (by decide +kernel)
    rw [exampleModel_topology hollowTetrahedron _ _ modelRuntime (by decide +kernel) (by decide +kernel)]
    exact ⟨fun m => List.reverse_perm m, aw.surfaces, aw.surfaceKeys, aw.blocks, aw.blockKeys, aw.polygons,
      by subst hs; decide +kernel, by subst hs; decide +kernel⟩
  coherent := hollowTetrahedron.coherent_of_check (by decide +kernel)
  surfaceEmbeddings := fun id _ e he => absurd he List.not_mem_nil
  firstEdges := by subst hs; decide +kernel
  counts := by
    rw [exampleModel_topology hollowTetrahedron _ _ modelRuntime (by decide +kernel) (by decide +kernel)]
    exact counts_of_check hollowTetrahedron (by decide +kernel)
  graph := firstEdge_finder
  geometry := noGeometry_raises
  rays := example_rays _
  modelBoundaries := Or.inl rfl

set_option maxRecDepth 20000 in
theorem tetrahedronBesideHollow_ok :
    BRepOk modelLibrary modelRuntime (exampleModel tetrahedronBesideHollow (10 * ·) .positive) noCandidate where
  meshesKnown := MeshesOk.toMeshesKnown (exampleModel_meshes _ _ _ (by decide +kernel))
  blockWalks := MeshesOk.blockWalks (exampleModel_meshes _ _ _ (by decide +kernel))
  types := exampleModel_types _ _ _ _ (by decide +kernel)
  trees := exampleModel_trees _ _ _ _ (by decide +kernel)
  nbModelEdges := by decide +kernel
  topology := exampleModel_wf _ _ _ _ (by decide +kernel) (by decide +kernel) (by decide +kernel)
  around := by
    have aw := tetrahedronBesideHollow.aw_of_check (by decide +kernel)
    rw [exampleModel_topology tetrahedronBesideHollow _ _ modelRuntime (by decide +kernel) (by decide +kernel)]
    exact ⟨fun m => List.reverse_perm m, aw.surfaces, aw.surfaceKeys, aw.blocks, aw.blockKeys, aw.polygons,
      by decide +kernel, by decide +kernel⟩
  coherent := tetrahedronBesideHollow.coherent_of_check (by decide +kernel)
  surfaceEmbeddings := fun id _ e he => absurd he List.not_mem_nil
  firstEdges := by decide +kernel
  counts := by
    rw [exampleModel_topology tetrahedronBesideHollow _ _ modelRuntime (by decide +kernel) (by decide +kernel)]
    exact counts_of_check tetrahedronBesideHollow (by decide +kernel)
  graph := firstEdge_finder
  geometry := noGeometry_raises
  rays := example_rays _
  modelBoundaries := Or.inl rfl

set_option maxRecDepth 100000 in
set_option maxHeartbeats 4000000 in
theorem Parts.hollow_sound (n : Nat) : isBRepOfValid modelLibrary modelRuntime (n + 50)
    (exampleModel hollowTetrahedron (fun n => 10 * (n + tetrahedronBRep.vertices.length)) .positive) = .ok {} := by rfl

set_option maxRecDepth 100000 in
set_option maxHeartbeats 4000000 in
theorem Parts.besideHollow_invalid (n : Nat) : (isBRepOfValid modelLibrary modelRuntime (n + 50)
    (exampleModel tetrahedronBesideHollow (10 * ·) .positive)).toOption.map (·.isValid) = some false := by rfl

set_option maxRecDepth 40000 in
/-- **C129** is not true of BReps with Blocks in one part only, even without model boundary: the four faces of a tetrahedron,
without Block, are a valid BRep, since the Blocks are not inspected when there is none (brep_blocks_topology.cpp:908-911), and
so is another tetrahedron with its Block; but the BRep made of both is invalid, since now the faces without Block are looked
at and may be a boundary (brep_blocks_topology.cpp:755-768). -/
theorem C129_blocks_false : ∃ (m m1 m2 : ModelData Nat) (ι1 ι2 : Index → Index) (near : Nat → Nat → Prop)
    (c c1 c2 : Candidates Nat), MadeOf m m1 m2 ι1 ι2 ∧ IsBRepPart ι1 m1 m ∧ IsBRepPart ι2 m2 m ∧
    m1.blocksOracle = m.blocksOracle ∧ m2.blocksOracle = m.blocksOracle ∧ m.blocksOracle.modelBoundaries = [] ∧
    ReadsMeshOnly m.blocksOracle.geometry ∧
    FarApart modelLibrary (BRepTrianglesMeet modelLibrary.geometry) near m m1 m2 ∧
    BlocksApart modelLibrary m m1 m2 ∧ BlocksApart modelLibrary m m2 m1 ∧
    BRepOk modelLibrary modelRuntime m c ∧ BRepOk modelLibrary modelRuntime m1 c1 ∧ BRepOk modelLibrary modelRuntime m2 c2 ∧
    NumbersKnown m ∧ NumbersKnown m1 ∧ NumbersKnown m2 ∧ UniqueVerticesNear modelLibrary near m ∧
    UniqueVerticesNear modelLibrary near m1 ∧ UniqueVerticesNear modelLibrary near m2 ∧ ¬ PlainUnreadable m ∧ ∀ fuel ≥ 50,
    ∃ v v1 v2, isBRepOfValid modelLibrary modelRuntime fuel m = .ok v ∧
      isBRepOfValid modelLibrary modelRuntime fuel m1 = .ok v1 ∧
      isBRepOfValid modelLibrary modelRuntime fuel m2 = .ok v2 ∧ v.isValid = false ∧ v1.isValid = true ∧ v2.isValid = true := by
  have h1 : Parts.Ignores tetrahedronBRep hollowTetrahedron := by decide +kernel
  have h2 : Parts.Ignores hollowTetrahedron tetrahedronBRep := by decide +kernel
  have h3 : Parts.AllLinkedData hollowTetrahedron := by decide +kernel
  refine ⟨exampleModel tetrahedronBesideHollow (10 * ·) .positive, exampleModel tetrahedronBRep (10 * ·) .positive,
    exampleModel hollowTetrahedron (fun n => 10 * (n + tetrahedronBRep.vertices.length)) .positive, id,
    (· + tetrahedronBRep.vertices.length), fun _ _ => False, noCandidate, noCandidate, noCandidate,
    Parts.madeOf (10 * ·) .positive h1 h2 h3, Parts.first (10 * ·) .positive h1 h2,
    Parts.second (10 * ·) .positive h1 h2 h3, rfl, rfl, rfl, Parts.meshOnly,
    Parts.apart (10 * ·) .positive _ Parts.brepApart h1 h2 (by decide +kernel) (by decide +kernel),
    Parts.blocksApart rfl, Parts.blocksApart rfl, tetrahedronBesideHollow_ok, tetrahedronBRep_ok .positive,
    hollowTetrahedron_ok _ rfl, Parts.numbersKnown _ _ _ (by decide), Parts.numbersKnown _ _ _ (by decide),
    Parts.numbersKnown _ _ _ (by decide +kernel), example_near _, example_near _, example_near _, ?_, ?_⟩
  · rw [← Plain.unreadable_iff tetrahedronBesideHollow_ok.meshes modelRuntime]
    exact C68_surfaces_readable _ tetrahedronBesideHollow_ok.topology fun id _ e he => absurd he List.not_mem_nil
  · intro fuel hf
    obtain ⟨n, rfl⟩ := Nat.exists_eq_add_of_le hf
    rw [Nat.add_comm]
    have hv := Parts.besideHollow_invalid n
    cases hc : isBRepOfValid modelLibrary modelRuntime (n + 50)
        (exampleModel tetrahedronBesideHollow (10 * ·) .positive) with
    | error e => rw [hc] at hv; exact absurd hv (by simp [Except.toOption])
    | ok v =>
      rw [hc] at hv
      exact ⟨v, {}, {}, rfl, Parts.tetrahedron_sound n, Parts.hollow_sound n, Option.some.inj hv, rfl, rfl⟩

end Inspector
