import Verif.Props.PolygonsFalse
import Verif.Props.SamePlace
/-
C135: in a BRep declared valid, the Surfaces which bound something can enclose a volume, and the Surfaces without relation with
the Blocks are not in them.
-/
namespace Inspector
open Spec

namespace Outside
variable {P : Type} {lib : ModelLibrary P} {rt : ModelRuntime} {m : ModelData P}

/-- What is known of the Surfaces of a BRep declared valid. -/
theorem of_valid (hrt : ModelRuntimeOk rt) (c : Candidates P) (h : BRepOk lib rt m c) (hk : LinksKept m) :
    ∃ v N, (∀ fuel ≥ N, isBRepOfValid lib rt fuel m = .ok v) ∧ (v.isValid = true →
      (∃ b ∈ m.blocks, b.active = true) → ∀ s ∈ m.surfaces, s.active = true →
        s.nbPolygons ≠ 0 ∧ ∃ uv, ¬ SurfaceWrongForBlocks (m.topology rt) uv m.blocksOracle.isInsideBlock ∧
          ActiveAt (m.topology rt) uv .surface s.id) := by
  obtain ⟨v, N, h1, h2, h3, _⟩ := C82_brep_partial lib rt hrt m c h
  refine ⟨v, N, h1, fun hv ⟨b, hb, hba⟩ s hs hsa => ?_⟩
  have hd : ¬ HasUnmeshedComponent (m.topology rt) [.corner, .surface] ∧
      ¬ HasUnlinkedVertex (m.topology rt) [.corner, .surface] ∧ ¬ BlocksDefect (m.topology rt) m.blocksOracle := by
    by_cases hu : LinesUnreadable (m.topology rt)
    · have hd := (h3 hu).2.1 hv
      unfold BRepDefectBesideLines OtherTopologyDefect at hd
      simp only [not_or] at hd
      exact ⟨hd.2.2.2.2.2.2.2.2.2.2.2.1, hd.2.2.2.2.2.2.2.2.2.2.2.2.1, hd.2.2.2.2.2.2.2.2.2.2.2.2.2.2.2⟩
    · have hd := (h2 hu).1 hv
      unfold BRepDefect BRepTopologyDefect at hd
      simp only [not_or] at hd
      have sub : ∀ kind ∈ [ComponentType.corner, .surface], kind ∈ sectionKinds := by decide
      refine ⟨?_, ?_, hd.2.2.2.2.2.2.2.2.2.2.2.2.2.2.2.2⟩
      · rintro ⟨kind, hkind, hk⟩
        exact hd.2.2.2.2.2.2.2.2.2.2.2.1 ⟨kind, sub kind hkind, hk⟩
      · rintro ⟨kind, hkind, hk⟩
        exact hd.2.2.2.2.2.2.2.2.2.2.2.2.1 ⟨kind, sub kind hkind, hk⟩
  obtain ⟨d1, d2, d3⟩ := hd
  have hmem : (⟨s.id, s.active, s.points.length, s.nbPolygons⟩ : TopologyComponent) ∈ (m.topology rt).components .surface :=
    List.mem_map_of_mem hs
  have hbmem : (⟨b.id, b.active, b.points.length, b.nbPolyhedra⟩ : TopologyComponent) ∈ (m.topology rt).components .block :=
    List.mem_map_of_mem hb
  have hmesh : Meshed .surface ⟨s.id, s.active, s.points.length, s.nbPolygons⟩ := by
    by_contra hn
    exact d1 ⟨.surface, by decide, _, hmem, hsa, hn⟩
  refine ⟨hmesh.2 (by decide), ?_⟩
  cases hu : m.uniqueVertex ⟨⟨.surface, s.id⟩, 0⟩ with
  | none => exact absurd ⟨.surface, by decide, _, hmem, hsa, 0, Nat.pos_of_ne_zero hmesh.1, hu⟩ d2
  | some uv =>
    obtain ⟨hlt, hcmv⟩ := hk _ _ hu
    refine ⟨uv, fun hw => d3 ?_, ⟨_, hcmv, rfl⟩, _, hmem, rfl, hsa⟩
    exact .inr (.inr (.inr (.inr ⟨⟨_, hbmem, hba⟩, .inr ⟨uv, hlt, .inr (.inr (.inr (.inl hw)))⟩⟩)))

end Outside

/-- **C135** (boundaries): if a BRep which has an active Block is declared valid, each active Surface which is boundary of a
component belongs to a set of Surfaces that can be closed: each boundary Line of a Surface of the set bounds another one. -/
theorem C135_boundary {P : Type} (lib : ModelLibrary P) (rt : ModelRuntime) (hrt : ModelRuntimeOk rt) (m : ModelData P)
    (c : Candidates P) (h : BRepOk lib rt m c) (hk : LinksKept m) :
    ∃ v N, (∀ fuel ≥ N, isBRepOfValid lib rt fuel m = .ok v) ∧ (v.isValid = true →
      (∃ b ∈ m.blocks, b.active = true) → ∀ s ∈ m.surfaces, s.active = true → m.incidences s.id ≠ [] →
        ∃ G : Uuid → Prop, G s.id ∧ ∀ x, G x → ∀ line, ⟨.line, line⟩ ∈ m.boundaries x →
          ∃ x', G x' ∧ x' ≠ x ∧ ⟨.line, line⟩ ∈ m.boundaries x') := by
  obtain ⟨v, N, h1, h2⟩ := Outside.of_valid hrt c h hk
  refine ⟨v, N, h1, fun hv hb s hs ha hi => ?_⟩
  obtain ⟨_, uv, hw, hat⟩ := h2 hv hb s hs ha
  by_contra hn
  exact hw ⟨s.id, hat, .inl ⟨hi, fun ⟨G, hG, hs⟩ => hn ⟨G, hs, hG⟩⟩⟩

/-- **C135** (Surfaces without relation with the Blocks): if a BRep which has an active Block is declared valid, the polygon
number 0 of an active Surface which is neither boundary nor internal is in no Block, and no closed set of Surfaces contains it.
Missing: its other polygons (false, see `C135_false`). -/
theorem C135_apart_partial {P : Type} (lib : ModelLibrary P) (rt : ModelRuntime) (hrt : ModelRuntimeOk rt) (m : ModelData P)
    (c : Candidates P) (h : BRepOk lib rt m c) (hk : LinksKept m) :
    ∃ v N, (∀ fuel ≥ N, isBRepOfValid lib rt fuel m = .ok v) ∧ (v.isValid = true →
      (∃ b ∈ m.blocks, b.active = true) → ∀ s ∈ m.surfaces, s.active = true → m.incidences s.id = [] →
        m.embeddings s.id = [] → (∀ b ∈ m.blocks, m.blocksOracle.isInsideBlock s.id b.id = .ok false) ∧
          ¬ ∃ G : Uuid → Prop, G s.id ∧ ∀ x, G x → ∀ line, ⟨.line, line⟩ ∈ m.boundaries x →
            ∃ x', G x' ∧ x' ≠ x ∧ ⟨.line, line⟩ ∈ m.boundaries x') := by
  obtain ⟨v, N, h1, h2⟩ := Outside.of_valid hrt c h hk
  refine ⟨v, N, h1, fun hv hb s hs ha hi he => ?_⟩
  obtain ⟨_, uv, hw, hat⟩ := h2 hv hb s hs ha
  by_contra hn
  refine hw ⟨s.id, hat, .inr ⟨hi, he, fun ⟨g1, g2⟩ => hn ⟨fun b hb => ?_, fun ⟨G, hs, hG⟩ => g1 ⟨G, hG, hs⟩⟩⟩⟩
  exact g2.2 ⟨b.id, b.active, b.points.length, b.nbPolyhedra⟩ (List.mem_map_of_mem hb)

/-- **C135** (whole Surfaces): if moreover no Surface crosses the boundary of a Block, no polygon of such a Surface is in a
Block. -/
theorem C135_apart_whole_partial {P : Type} (lib : ModelLibrary P) (rt : ModelRuntime) (hrt : ModelRuntimeOk rt)
    (m : ModelData P) (c : Candidates P) (h : BRepOk lib rt m c) (hk : LinksKept m)
    (inside : Uuid → Index → Uuid → Except Failure Bool) (hin : PolygonsIn inside m) (hside : OnOneSide inside m) :
    ∃ v N, (∀ fuel ≥ N, isBRepOfValid lib rt fuel m = .ok v) ∧ (v.isValid = true →
      (∃ b ∈ m.blocks, b.active = true) → ∀ s ∈ m.surfaces, s.active = true → m.incidences s.id = [] →
        m.embeddings s.id = [] → ∀ i < s.nbPolygons, ∀ b ∈ m.blocks, inside s.id i b.id = .ok false) := by
  obtain ⟨v, N, h1, h2⟩ := C135_apart_partial lib rt hrt m c h hk
  refine ⟨v, N, h1, fun hv hb s hs ha hi he i hn b hb' => ?_⟩
  rw [hside s hs i hn b hb', ← hin]
  exact (h2 hv hb s hs ha hi he).1 b hb'

theorem quadApart_links : LinksKept quadApartModel :=
  exampleModel_links quadApart (10 * ·) .positive

/-- **C135** is not true of all the polygons: a BRep is declared valid although a polygon of a Surface which is neither boundary nor
internal is in its active Block.  (brep_blocks_topology.cpp:246-276 looks for the polygon number 0 only.) -/
theorem C135_false : ∃ (m : ModelData Nat) (inside : Uuid → Index → Uuid → Except Failure Bool) (c : Candidates Nat),
    BRepOk modelLibrary modelRuntime m c ∧ LinksKept m ∧ PolygonsIn inside m ∧
    (∃ s ∈ m.surfaces, s.active = true ∧ m.incidences s.id = [] ∧ m.embeddings s.id = [] ∧
      ∃ i < s.nbPolygons, ∃ b ∈ m.blocks, b.active = true ∧ inside s.id i b.id = .ok true) ∧
    ∀ fuel ≥ 50, ∃ v, isBRepOfValid modelLibrary modelRuntime fuel m = .ok v ∧ v.isValid = true := by
  refine ⟨quadApartModel, halfInside, noCandidate, quadApart_ok, quadApart_links, ?_, ?_, ?_⟩
  · intro s b
    show Except.ok false = Except.ok (s == 121 && false && b == 31)
    simp
  · refine ⟨quadApartFace, List.mem_append_right _ (List.mem_singleton.2 rfl), rfl, by decide +kernel, by decide +kernel, 1,
      by decide, ?_⟩
    have : ∃ b ∈ quadApartModel.blocks, b.active = true ∧ b.id = 31 := by decide +kernel
    obtain ⟨b, hb, ha, hid⟩ := this
    exact ⟨b, hb, ha, by rw [hid]; rfl⟩
  · intro fuel hf
    obtain ⟨n, rfl⟩ : ∃ n, fuel = n + 50 := ⟨fuel - 50, by omega⟩
    exact ⟨_, Polygons.quadApart_valid n, rfl⟩

/-- The tetrahedron and the square apart are declared valid, -/
theorem Outside.quad_valid {v : ObjectValidity} {N : Nat}
    (h : ∀ fuel ≥ N, isBRepOfValid modelLibrary modelRuntime fuel quadApartModel = .ok v) : v.isValid = true := by
  have h := h (N + 50) (by omega)
  rw [Polygons.quadApart_valid] at h
  injection h with h
  subst h
  rfl

theorem Outside.quad_block : ∃ b ∈ quadApartModel.blocks, b.active = true := by decide +kernel

/-- so the faces of the tetrahedron can be closed -/
example : ∃ s ∈ quadApartModel.surfaces, quadApartModel.incidences s.id ≠ [] ∧
    ∃ G : Uuid → Prop, G s.id ∧ ∀ x, G x → ∀ line, ⟨.line, line⟩ ∈ quadApartModel.boundaries x →
      ∃ x', G x' ∧ x' ≠ x ∧ ⟨.line, line⟩ ∈ quadApartModel.boundaries x' := by
  obtain ⟨v, N, h1, h2⟩ := C135_boundary modelLibrary modelRuntime modelRuntime_ok quadApartModel noCandidate quadApart_ok
    quadApart_links
  have : ∃ s ∈ quadApartModel.surfaces, s.active = true ∧ quadApartModel.incidences s.id ≠ [] := by decide +kernel
  obtain ⟨s, hs, ha, hi⟩ := this
  exact ⟨s, hs, hi, h2 (Outside.quad_valid h1) Outside.quad_block s hs ha hi⟩

/-- and the first triangle of the square is not in the tetrahedron. -/
example : ∀ b ∈ quadApartModel.blocks, quadApartModel.blocksOracle.isInsideBlock 121 b.id = .ok false := by
  obtain ⟨v, N, h1, h2⟩ := C135_apart_partial modelLibrary modelRuntime modelRuntime_ok quadApartModel noCandidate
    quadApart_ok quadApart_links
  exact (h2 (Outside.quad_valid h1) Outside.quad_block quadApartFace (List.mem_append_right _ (List.mem_singleton.2 rfl)) rfl
    (by decide +kernel) (by decide +kernel)).1

/-- If the square does not cross the tetrahedron, none of its triangles is in it. -/
example (inside : Uuid → Index → Uuid → Except Failure Bool) (hin : PolygonsIn inside quadApartModel)
    (hside : OnOneSide inside quadApartModel) : ∀ i < 2, ∀ b ∈ quadApartModel.blocks, inside 121 i b.id = .ok false := by
  obtain ⟨v, N, h1, h2⟩ := C135_apart_whole_partial modelLibrary modelRuntime modelRuntime_ok quadApartModel noCandidate
    quadApart_ok quadApart_links inside hin hside
  exact h2 (Outside.quad_valid h1) Outside.quad_block quadApartFace (List.mem_append_right _ (List.mem_singleton.2 rfl)) rfl
    (by decide +kernel) (by decide +kernel)

/-- as for this one -/
example : PolygonsIn (fun _ _ _ => .ok false) quadApartModel ∧ OnOneSide (fun _ _ _ => .ok false) quadApartModel :=
  ⟨fun _ _ => rfl, fun _ _ _ _ _ _ => rfl⟩

end Inspector
