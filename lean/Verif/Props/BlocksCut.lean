import Verif.Props.InternalCorners
/-
C150: the Blocks of a valid BRep are cut along the Surfaces internal to them, and nowhere else.
-/
namespace Inspector
open Spec SamePlace

/-- The vertex `j` of the mesh of the Block is at the place `p`. -/
def Spec.BlockVertexAt {P : Type} (near : P → P → Prop) (b : VolumeData P) (p : P) (j : Nat) : Prop :=
  ∃ q, b.points[j]? = some q ∧ near q p

/-- The vertex `x.2` of the mesh of the Surface `x.1` is at the place `p`. -/
def Spec.SurfaceVertexAt {P : Type} (near : P → P → Prop) (m : ModelData P) (p : P) (x : Uuid × Nat) : Prop :=
  ∃ s ∈ m.surfaces, s.id = x.1 ∧ ∃ q, s.points[x.2]? = some q ∧ near q p

namespace BlocksCut
variable {P : Type} {lib : ModelLibrary P} {rt : ModelRuntime} {m : ModelData P}

/-- The vertices of a Block at a unique vertex. -/
theorem block_vertices (near : P → P → Prop) (hl : PlacesOk lib m near) (hk : LinksKept m)
    (hids : (m.corners.map CornerData.id ++ m.lines.map LineData.id ++ m.surfaces.map FaceData.id ++
      m.blocks.map VolumeData.id).Nodup) {kinds : List ComponentType}
    (h1 : ¬ ∃ uv, uv < m.nbUniqueVertices ∧ DifferentPoints lib.inexactEqual (m.uniqueVertices lib) uv)
    (h2 : ¬ HasColocatedUniqueVertices lib m) (hb : BijectivelyLinked (m.topology rt) kinds) {u : Index} {x : ComponentMeshVertex}
    {p : P} (hx : VertexAt m x p) (hu : m.uniqueVertex x = some u) (ho : (m.componentMeshVertices u).Nodup)
    {b : VolumeData P} (mb : b ∈ m.blocks) (ha : b.active = true)
    (hlink : ∀ i < b.points.length, ∃ u, m.uniqueVertex ⟨⟨.block, b.id⟩, i⟩ = some u) :
    ∃ xs : List Nat, xs.Nodup ∧ (∀ j, j ∈ xs ↔ BlockVertexAt near b p j) ∧ xs.length = nbBlockCmvs (m.topology rt) u b.id := by
  have hlt := (hk _ _ hu).1
  refine ⟨((cmvsOf (m.topology rt) u .block).filter fun cmv => decide (cmv.component_id.id = b.id)).map fun cmv => cmv.vertex,
    ?_, fun j => ?_, List.length_map _⟩
  · refine List.Nodup.map_on ?_ ((ho.filter _).filter _)
    intro a hA b' hB heq
    obtain ⟨hA1, hA2⟩ := List.mem_filter.1 hA
    obtain ⟨hB1, hB2⟩ := List.mem_filter.1 hB
    have hA3 : a.component_id.type = .block := by simpa using (List.mem_filter.1 hA1).2
    have hB3 : b'.component_id.type = .block := by simpa using (List.mem_filter.1 hB1).2
    have hA2 : a.component_id.id = b.id := by simpa using hA2
    have hB2 : b'.component_id.id = b.id := by simpa using hB2
    obtain ⟨⟨_, _⟩, _⟩ := a
    obtain ⟨⟨_, _⟩, _⟩ := b'
    simp only at hA2 hB2 hA3 hB3 heq
    rw [hA2, hB2, hA3, hB3, heq]
  · constructor
    · intro hj
      obtain ⟨⟨⟨kind, id⟩, w⟩, hc, rfl⟩ := List.mem_map.1 hj
      obtain ⟨hc1, hc2⟩ := List.mem_filter.1 hc
      have hc5 : id = b.id := by simpa using hc2
      obtain ⟨hc3, hc4⟩ := List.mem_filter.1 hc1
      have hc6 : kind = .block := by simpa using hc4
      subst hc6
      subst hc5
      have hin : ⟨⟨.block, b.id⟩, w⟩ ∈ (m.topology rt).componentMeshVertices u := hc3
      obtain ⟨⟨_, t, ht, htid, hv⟩, hact⟩ := (hb u hlt).2 _ hin
      obtain ⟨b', mb', rfl⟩ := List.mem_map.1 (show t ∈ m.blocks.map fun b =>
        (⟨b.id, b.active, b.points.length, b.nbPolyhedra⟩ : TopologyComponent) from ht)
      obtain rfl := LinesInside.block_same hids mb mb' htid
      have hw : w < b'.points.length := hv
      have hy := VertexAt.block b' w _ mb ha (List.getElem?_eq_getElem hw)
      exact ⟨_, List.getElem?_eq_getElem hw, (correspond lib near m rt hl hids hk _ hb h1 h2 _ _ _ _ hy hx u u
        (hact ⟨_, ht, rfl, ha⟩) hu).1 rfl⟩
    · rintro ⟨q, hq, hn⟩
      have hy := VertexAt.block b j q mb ha hq
      obtain ⟨u', hu'⟩ := hlink j (List.getElem?_eq_some_iff.1 hq).1
      obtain rfl := (correspond lib near m rt hl hids hk _ hb h1 h2 _ _ _ _ hy hx u' u hu' hu).2 hn
      exact List.mem_map.2 ⟨_, List.mem_filter.2 ⟨List.mem_filter.2 ⟨(hk _ _ hu').2, decide_eq_true rfl⟩, decide_eq_true rfl⟩, rfl⟩

/-- The vertices of some active Surfaces at a unique vertex. -/
theorem surface_vertices (near : P → P → Prop) (hl : PlacesOk lib m near) (hk : LinksKept m)
    (hids : (m.corners.map CornerData.id ++ m.lines.map LineData.id ++ m.surfaces.map FaceData.id ++
      m.blocks.map VolumeData.id).Nodup) {kinds : List ComponentType}
    (h1 : ¬ ∃ uv, uv < m.nbUniqueVertices ∧ DifferentPoints lib.inexactEqual (m.uniqueVertices lib) uv)
    (h2 : ¬ HasColocatedUniqueVertices lib m) (hb : BijectivelyLinked (m.topology rt) kinds)
    (h5 : ¬ HasUnlinkedVertex (m.topology rt) [.corner, .surface]) {u : Index} {x : ComponentMeshVertex}
    {p : P} (hx : VertexAt m x p) (hu : m.uniqueVertex x = some u) (ho : (m.componentMeshVertices u).Nodup)
    (f : ComponentMeshVertex → Bool) (g : Uuid → Bool) (hfg : ∀ c : ComponentMeshVertex, f c = g c.component_id.id)
    (ha : ∀ s ∈ m.surfaces, g s.id = true → s.active = true) :
    ∃ xs : List (Uuid × Nat), xs.Nodup ∧ (∀ y, y ∈ xs ↔ SurfaceVertexAt near m p y ∧ g y.1 = true) ∧
      xs.length = ((cmvsOf (m.topology rt) u .surface).filter f).length := by
  have hlt := (hk _ _ hu).1
  refine ⟨((cmvsOf (m.topology rt) u .surface).filter f).map fun cmv => (cmv.component_id.id, cmv.vertex),
    ?_, fun y => ?_, List.length_map _⟩
  · refine List.Nodup.map_on ?_ ((ho.filter _).filter _)
    intro a hA b' hB heq
    have hA3 := of_decide_eq_true (List.mem_filter.1 (List.mem_filter.1 hA).1).2
    have hB3 := of_decide_eq_true (List.mem_filter.1 (List.mem_filter.1 hB).1).2
    obtain ⟨⟨_, _⟩, _⟩ := a
    obtain ⟨⟨_, _⟩, _⟩ := b'
    simp only [Prod.mk.injEq] at hA3 hB3 heq
    obtain ⟨rfl, rfl⟩ := heq
    subst hA3
    rw [← hB3]
  · constructor
    · intro hj
      obtain ⟨⟨⟨kind, id⟩, w⟩, hc, rfl⟩ := List.mem_map.1 hj
      obtain ⟨hc1, hc2⟩ := List.mem_filter.1 hc
      rw [hfg] at hc2
      have hc2 : g id = true := hc2
      obtain ⟨hc3, hc4⟩ := List.mem_filter.1 hc1
      have hc4 : kind = .surface := of_decide_eq_true hc4
      subst hc4
      have hin : ⟨⟨.surface, id⟩, w⟩ ∈ (m.topology rt).componentMeshVertices u := hc3
      obtain ⟨⟨_, t, ht, htid, hv⟩, hact⟩ := (hb u hlt).2 _ hin
      obtain ⟨s, ms, rfl⟩ := List.mem_map.1 (show t ∈ m.surfaces.map fun s =>
        (⟨s.id, s.active, s.points.length, s.nbPolygons⟩ : TopologyComponent) from ht)
      have htid : s.id = id := htid
      subst htid
      have hw : w < s.points.length := hv
      have hy := VertexAt.surface s w _ ms (ha s ms hc2) (List.getElem?_eq_getElem hw)
      exact ⟨⟨s, ms, rfl, _, List.getElem?_eq_getElem hw, (correspond lib near m rt hl hids hk _ hb h1 h2 _ _ _ _ hy hx u u
        (hact ⟨_, ht, rfl, ha s ms hc2⟩) hu).1 rfl⟩, hc2⟩
    · rintro ⟨⟨s, ms, hid, q, hq, hn⟩, hg⟩
      obtain ⟨id, w⟩ := y
      have hid : s.id = id := hid
      subst hid
      have hy := VertexAt.surface s w q ms (ha s ms hg) hq
      obtain ⟨u', hu'⟩ := linked_of_no_defect m rt _ h5 _ _ hy (List.mem_cons_of_mem _ List.mem_cons_self)
      obtain rfl := (correspond lib near m rt hl hids hk _ hb h1 h2 _ _ _ _ hy hx u' u hu' hu).2 hn
      exact List.mem_map.2 ⟨_, List.mem_filter.2 ⟨List.mem_filter.2 ⟨(hk _ _ hu').2, decide_eq_true rfl⟩, by rw [hfg]; exact hg⟩, rfl⟩

end BlocksCut
open BlocksCut

/-- **C150**: in a BRep declared valid, at the place of a vertex of an active Block where no Line is except those internal to a Block, the
Block has as many vertices as there are vertices of Surfaces internal to it, plus as many as there are vertices of Surfaces bounding it,
or plus one if there is none. -/
theorem C150_brep {P : Type} (lib : ModelLibrary P) (rt : ModelRuntime) (hrt : ModelRuntimeOk rt) (m : ModelData P)
    (c : Candidates P) (h : BRepOk lib rt m c) (near : P → P → Prop) (hl : PlacesOk lib m near) (hk : LinksKept m)
    (ho : ∀ u < m.nbUniqueVertices, (m.componentMeshVertices u).Nodup) :
    ∃ v N, (∀ fuel ≥ N, isBRepOfValid lib rt fuel m = .ok v) ∧ (v.isValid = true →
      ∀ b ∈ m.blocks, b.active = true → b.nbPolyhedra ≠ 0 →
        (∀ s ∈ m.surfaces, (m.isBoundary s.id b.id = true ∨ m.isInternal s.id b.id = true) → s.active = true) →
        ∀ p ∈ b.points, (∀ l ∈ m.lines, (∃ e ∈ m.embeddings l.id, e.type = .block) ∨ l.active = true ∧ ∀ q ∈ l.points, ¬ near q p) →
          ∃ xs : List Nat, ∃ boundary inside : List (Uuid × Nat), xs.Nodup ∧ boundary.Nodup ∧ inside.Nodup ∧
            (∀ j, j ∈ xs ↔ BlockVertexAt near b p j) ∧
            (∀ x, x ∈ boundary ↔ SurfaceVertexAt near m p x ∧ m.isBoundary x.1 b.id = true) ∧
            (∀ x, x ∈ inside ↔ SurfaceVertexAt near m p x ∧ m.isBoundary x.1 b.id = false ∧ m.isInternal x.1 b.id = true) ∧
            xs.length = inside.length + max 1 boundary.length) := by
  obtain ⟨v, N, h1, h2⟩ := BlocksMeet.of_brep hrt c h
  refine ⟨v, N, h1, fun hv b mb ha hpoly hact p hp hlines => ?_⟩
  obtain ⟨d1, d2, hb, d4, _, d6⟩ := h2 hv
  have ids := h.meshesKnown.ids
  unfold BlocksDefect at d6
  simp only [not_or] at d6
  obtain ⟨i, hi, rfl⟩ := List.getElem_of_mem hp
  have hx := VertexAt.block b i _ mb ha (List.getElem?_eq_getElem hi)
  have hbm : BlockMeshed ⟨b.id, b.active, b.points.length, b.nbPolyhedra⟩ :=
    ⟨fun h0 => absurd hi (by rw [show b.points.length = 0 from h0]; exact Nat.not_lt_zero _), hpoly⟩
  have memb : (⟨b.id, b.active, b.points.length, b.nbPolyhedra⟩ : TopologyComponent) ∈ (m.topology rt).components .block :=
    List.mem_map_of_mem mb
  have linked : ∀ i < b.points.length, ∃ u, m.uniqueVertex ⟨⟨.block, b.id⟩, i⟩ = some u := by
    intro i hi
    cases hu : m.uniqueVertex ⟨⟨.block, b.id⟩, i⟩ with
    | some u => exact ⟨u, rfl⟩
    | none => exact absurd ⟨_, memb, ha, hbm, i, hi, hu⟩ d6.2.1
  obtain ⟨u, hu⟩ := linked i hi
  have hlt := (hk _ _ hu).1
  have hw : CountIsRight (m.topology rt) u b.id := by
    by_contra hw
    exact d6.2.2.2.2 ⟨⟨_, memb, ha⟩, .inr ⟨u, hlt, .inr (.inl ⟨b.id, LineEnds.activeAt rt hk hx hu, hw⟩)⟩⟩
  have hno : linesAt (m.topology rt) u = [] := by
    refine List.eq_nil_iff_forall_not_mem.2 fun id hid => ?_
    obtain ⟨hid, hemb⟩ := List.mem_filter.1 hid
    obtain ⟨cmv, hcmv, rfl⟩ := List.mem_map.1 hid
    obtain ⟨hin, hkd⟩ := List.mem_filter.1 hcmv
    have hkd := of_decide_eq_true hkd
    have hemb := of_decide_eq_true hemb
    obtain ⟨⟨kind, id⟩, w⟩ := cmv
    have hkd : kind = .line := hkd
    subst hkd
    obtain ⟨l, ml, rfl, hnear⟩ := SurfacesMeet.line_of near hl hk ids d1 d2 hb hx hu (line := id) ⟨_, hin, rfl⟩
    rcases hlines l ml with ⟨e, he, het⟩ | ⟨hla, hfar⟩
    · exact hemb e he het
    · obtain ⟨q, hq, hqn⟩ := hnear hla
      exact hfar q hq hqn
  obtain ⟨xs, n1, e1, c1⟩ := block_vertices (rt := rt) near hl hk ids d1 d2 hb hx hu (ho u hlt) mb ha linked
  obtain ⟨bs, n2, e2, c2⟩ := surface_vertices near hl hk ids d1 d2 hb d4 hx hu (ho u hlt)
    (fun cmv => (m.topology rt).isBoundary cmv.component_id.id b.id) (fun s => m.isBoundary s b.id) (fun _ => rfl)
    fun s ms hs => hact s ms (.inl hs)
  obtain ⟨ins, n3, e3, c3⟩ := surface_vertices near hl hk ids d1 d2 hb d4 hx hu (ho u hlt)
    (fun cmv => !(m.topology rt).isBoundary cmv.component_id.id b.id && (m.topology rt).isInternal cmv.component_id.id b.id)
    (fun s => !m.isBoundary s b.id && m.isInternal s b.id) (fun _ => rfl) fun s ms hs => hact s ms (.inr (by
      rw [Bool.and_eq_true] at hs
      exact hs.2))
  refine ⟨xs, bs, ins, n1, n2, n3, e1, e2, fun x => ?_, ?_⟩
  · rw [e3 x, Bool.and_eq_true, Bool.not_eq_true']
  · have hc : (nbBlockCmvs (m.topology rt) u b.id : Int) = expectedCount (m.topology rt) u b.id := by
      rcases hw with hw | ⟨hw, _⟩
      · exact hw
      · unfold nbSeveralPassages at hw
        rw [hno] at hw
        simp at hw
    unfold expectedCount nbLinesInside nbLinePassages nbAdditionalPassages at hc
    rw [hno] at hc
    simp only [List.filter_nil, List.map_nil, List.length_nil, List.sum_nil, ne_eq, not_true_eq_false, or_self, if_false] at hc
    have c2 : bs.length = nbBoundarySurfaceCmvs (m.topology rt) u b.id := c2
    have c3 : ins.length = nbInternalSurfaceCmvs (m.topology rt) u b.id := c3
    rw [← c1, ← c2, ← c3] at hc
    split at hc <;> omega

/-- The tetrahedron, its faces being inactive and unrelated to the Block, and its Lines internal to it. -/
def wiredTetrahedron : TopologyData := { unrelatedFaces with
  boundary := unrelatedFaces.boundary.filter fun e => e.2.type == .line
  internal := unrelatedFaces.lines.map fun l => (⟨.line, l.id⟩, ⟨.block, 31⟩) }

theorem wiredTetrahedron_ok : BRepOk modelLibrary modelRuntime (exampleModel wiredTetrahedron (10 * ·) .positive) noCandidate where
  meshesKnown := MeshesOk.toMeshesKnown (exampleModel_meshes _ _ _ (by decide))
  blockWalks := MeshesOk.blockWalks (exampleModel_meshes _ _ _ (by decide))
  types := exampleModel_types _ _ _ _ (by decide)
  trees := exampleModel_trees _ _ _ _ (by decide +kernel)
  nbModelEdges := by decide +kernel
  topology := exampleModel_wf _ _ _ _ (by decide) (by decide) (by decide)
  around := by
    have aw := wiredTetrahedron.aw_of_check (by decide)
    rw [exampleModel_topology wiredTetrahedron _ .positive modelRuntime (by decide) (by decide)]
    exact ⟨fun m => List.reverse_perm m, aw.surfaces, aw.surfaceKeys, aw.blocks, aw.blockKeys, aw.polygons,
      by decide +kernel, by decide +kernel⟩
  coherent := wiredTetrahedron.coherent_of_check (by decide)
  surfaceEmbeddings := by
    rintro id ⟨c, hc, rfl, _⟩ e he
    have hc' : c ∈ (exampleModel wiredTetrahedron (10 * ·) .positive).surfaces.map fun c =>
      (⟨c.id, c.active, c.points.length, c.nbPolygons⟩ : TopologyComponent) := hc
    have hn : ∀ x ∈ wiredTetrahedron.surfaces, wiredTetrahedron.toModel.embeddings x.id = [] := by decide
    obtain ⟨f, hf, rfl⟩ := List.mem_map.1 hc'
    obtain ⟨x, hx, rfl⟩ := List.mem_map.1 hf
    have he' : e ∈ wiredTetrahedron.toModel.embeddings x.id := he
    rw [hn x hx] at he'
    exact absurd he' List.not_mem_nil
  firstEdges := by decide +kernel
  counts := by
    rw [exampleModel_topology wiredTetrahedron _ .positive modelRuntime (by decide) (by decide)]
    exact counts_of_check wiredTetrahedron (by decide)
  graph := firstEdge_finder
  geometry := noGeometry_raises
  rays := example_rays _
  modelBoundaries := Or.inl rfl

set_option maxRecDepth 20000 in
/-- Where its Lines, internal to the Block, are, no Surface cuts it: it has one vertex at each of these places. -/
example : ∃ xs : List Nat, (∀ j, j ∈ xs ↔ BlockVertexAt (· = ·)
      ((exampleModel wiredTetrahedron (10 * ·) .positive).blocks[0]'(by decide)) 10 j) ∧ xs.length = 1 := by
  obtain ⟨v, N, h1, h2⟩ := C150_brep modelLibrary modelRuntime modelRuntime_ok _ _ wiredTetrahedron_ok (· = ·)
    (exampleModel_places _ _ _ (by decide +kernel)) (exampleModel_links _ _ _) (by decide +kernel)
  have hv : v.isValid = true := by
    have h := h1 (N + 30) (by omega)
    have he : isBRepOfValid modelLibrary modelRuntime (N + 30) (exampleModel wiredTetrahedron (10 * ·) .positive) = .ok {} := by rfl
    rw [he] at h
    injection h with h
    rw [← h]
    rfl
  have hi : ∀ s ∈ (exampleModel wiredTetrahedron (10 * ·) .positive).surfaces,
      (exampleModel wiredTetrahedron (10 * ·) .positive).isBoundary s.id 31 = false ∧
      (exampleModel wiredTetrahedron (10 * ·) .positive).isInternal s.id 31 = false := by decide +kernel
  have hl : ∀ l ∈ (exampleModel wiredTetrahedron (10 * ·) .positive).lines,
      ∃ e ∈ (exampleModel wiredTetrahedron (10 * ·) .positive).embeddings l.id, e.type = .block := by decide +kernel
  obtain ⟨xs, boundary, inside, -, -, -, e1, e2, e3, e4⟩ := h2 hv
    ((exampleModel wiredTetrahedron (10 * ·) .positive).blocks[0]'(by decide)) (List.getElem_mem _) rfl (by decide +kernel)
    (fun s hs h => by
      rcases h with h | h
      · exact absurd ((hi s hs).1.symm.trans h) (by decide)
      · exact absurd ((hi s hs).2.symm.trans h) (by decide))
    10 (by decide +kernel) (fun l hl' => .inl (hl l hl'))
  have n2 : boundary = [] := List.eq_nil_iff_forall_not_mem.2 fun x hx => by
    obtain ⟨⟨s, hs, he, _⟩, hb⟩ := (e2 x).1 hx
    rw [← he] at hb
    exact absurd ((hi s hs).1.symm.trans hb) (by decide)
  have n3 : inside = [] := List.eq_nil_iff_forall_not_mem.2 fun x hx => by
    obtain ⟨⟨s, hs, he, _⟩, _, hb⟩ := (e3 x).1 hx
    rw [← he] at hb
    exact absurd ((hi s hs).2.symm.trans hb) (by decide)
  refine ⟨xs, e1, ?_⟩
  rw [e4, n2, n3]
  rfl

end Inspector
