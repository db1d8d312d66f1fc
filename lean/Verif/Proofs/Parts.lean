import Verif.Spec.Parts
import Verif.Proofs.Numbers
/-
Proofs for C129: a Section made of two parts which have nothing in common has a defect when, and only when, one of its parts
has one.
-/
namespace Inspector.Parts
open Inspector Spec

/-! ### topology at one unique vertex -/

/-- Two topologies agree on the components `K`, and at a unique vertex with the same links to such components. -/
structure Agree (K : Uuid → Prop) (t t' : TopologyModel) (v v' : Index) : Prop where
  cmvs : t'.componentMeshVertices v' = t.componentMeshVertices v
  known : ∀ c ∈ t.componentMeshVertices v, K c.component_id.id
  knownEmbeddings : ∀ id, K id → ∀ e ∈ t.embeddings id, K e.id
  active : ∀ kind id, K id → (Active t' kind id ↔ Active t kind id)
  embeddings : ∀ id, K id → t'.embeddings id = t.embeddings id
  incidences : ∀ id, K id → t'.incidences id = t.incidences id
  isBoundary : ∀ a b, K a → K b → t'.isBoundary a b = t.isBoundary a b
  isInternal : ∀ a b, K a → K b → t'.isInternal a b = t.isInternal a b
  isVertexOnBorder : ∀ id, K id → Active t .surface id → t'.isVertexOnBorder id = t.isVertexOnBorder id
  allMeshed : AllMeshed t' .surface ↔ AllMeshed t .surface

section
variable {K : Uuid → Prop} {t t' : TopologyModel} {v v' : Index} (h : Agree K t t' v v')
include h

theorem Agree.symm : Agree K t' t v' v where
  cmvs := h.cmvs.symm
  known := by rw [h.cmvs]; exact h.known
  knownEmbeddings id hid := by rw [h.embeddings id hid]; exact h.knownEmbeddings id hid
  active kind id hid := (h.active kind id hid).symm
  embeddings id hid := (h.embeddings id hid).symm
  incidences id hid := (h.incidences id hid).symm
  isBoundary a b ha hb := (h.isBoundary a b ha hb).symm
  isInternal a b ha hb := (h.isInternal a b ha hb).symm
  isVertexOnBorder id hid ha := (h.isVertexOnBorder id hid ((h.active _ _ hid).1 ha)).symm
  allMeshed := h.allMeshed.symm

theorem known_at {kind : ComponentType} {id : Uuid} (ha : At t v kind id) : K id := by
  obtain ⟨c, hc, e⟩ := ha
  have := h.known c hc
  rwa [e] at this

theorem at_iff (kind : ComponentType) (id : Uuid) : At t' v' kind id ↔ At t v kind id := by
  unfold At; rw [h.cmvs]

theorem activeAt {kind : ComponentType} {id : Uuid} (ha : ActiveAt t v kind id) : ActiveAt t' v' kind id :=
  ⟨(at_iff h _ _).2 ha.1, (h.active _ _ (known_at h ha.1)).2 ha.2⟩

theorem twice {kind : ComponentType} (ha : TwiceActive t v kind) : TwiceActive t' v' kind := by
  obtain ⟨a, b, hs, h1, h2, h3, h4⟩ := ha
  refine ⟨a, b, by rw [h.cmvs]; exact hs, h1, (h.active _ _ (h.known _ (hs.subset (by simp)))).2 h2, h3,
    (h.active _ _ (h.known _ (hs.subset (by simp)))).2 h4⟩

theorem embeddedWrong {line : Uuid} (hk : K line) (hw : EmbeddedLineIsWrong t v line) : EmbeddedLineIsWrong t' v' line := by
  unfold EmbeddedLineIsWrong at hw ⊢
  rw [h.embeddings line hk, h.incidences line hk, h.cmvs, h.allMeshed]
  refine hw.imp_right fun hw => hw.imp_right ?_
  rintro ⟨h1, e, he, h2, h3⟩
  exact ⟨h1, e, he, (h.active _ _ (h.knownEmbeddings line hk e he)).2 h2, h3⟩

theorem activeCmv {kind : ComponentType} {c : ComponentMeshVertex} (hk : K c.component_id.id) :
    ActiveCmv t' kind c ↔ ActiveCmv t kind c := by
  unfold ActiveCmv; rw [h.active _ _ hk]

theorem embeddedBefore (hb : EmbeddedBefore t v (t.componentMeshVertices v)) :
    EmbeddedBefore t' v' (t'.componentMeshVertices v') := by
  obtain ⟨pre, c, post, e, h1, h2, h3, h4⟩ := hb
  have hk : ∀ x ∈ pre ++ c :: post, K x.component_id.id := by rw [← e]; exact h.known
  have hc : K c.component_id.id := hk c (by simp)
  refine ⟨pre, c, post, by rw [h.cmvs, e], (activeCmv h hc).2 h1, by rw [h.embeddings _ hc]; exact h2,
    embeddedWrong h hc h3, fun x hx ha => ?_⟩
  have hkx := hk x (by simp [hx])
  rw [h.embeddings _ hkx]
  exact h4 x hx ((activeCmv h hkx).1 ha)

theorem singleLine (hd : InvalidSingleLine t v) : InvalidSingleLine t' v' := by
  obtain ⟨line, h1, h2, h3⟩ := hd
  have hk := known_at h h1.1
  unfold InvalidSingleLine
  refine ⟨line, activeAt h h1, fun l hl => h2 l ((at_iff h _ _).1 hl), ?_⟩
  simp only [at_iff h, h.embeddings line hk, h.allMeshed]
  rcases h3 with h3 | ⟨h3, h4, h5⟩ | ⟨h3, s, hs, h4⟩
  · exact .inl h3
  · refine .inr (.inl ⟨h3, h4, fun h6 => h5 ?_⟩)
    obtain ⟨s, hs, h7, h8⟩ := h6
    exact ⟨s, hs, h7, by rw [← h.isInternal line s hk (known_at h hs)]; exact h8⟩
  · exact .inr (.inr ⟨h3, s, hs, by rw [h.isBoundary line s hk (known_at h hs)]; exact h4⟩)

theorem vertexDefect_of (hd : SectionVertexDefect t v) : SectionVertexDefect t' v' := by
  rcases hd with hd | hd | hd | hd | hd | hd | hd | hd | hd | hd
  · exact .inl (twice h hd)
  · obtain ⟨x, h1, h2⟩ := hd
    exact .inr (.inl ⟨x, activeAt h h1, by rw [h.embeddings x (known_at h h1.1)]; exact h2⟩)
  · obtain ⟨x, h1, h2, h3⟩ := hd
    exact .inr (.inr (.inl ⟨x, activeAt h h1, by rw [h.embeddings x (known_at h h1.1)]; exact h2,
      by rw [h.incidences x (known_at h h1.1)]; exact h3⟩))
  · obtain ⟨x, l, h1, h2, h3⟩ := hd
    exact .inr (.inr (.inr (.inl ⟨x, l, activeAt h h1, (at_iff h _ _).2 h2,
      by rw [h.isBoundary x l (known_at h h1.1) (known_at h h2)]; exact h3⟩)))
  · obtain ⟨x, h1, h2, h3⟩ := hd
    exact .inr (.inr (.inr (.inr (.inl ⟨x, activeAt h h1, by rw [h.embeddings x (known_at h h1.1)]; exact h2,
      by rw [h.incidences x (known_at h h1.1)]; exact h3⟩))))
  · exact .inr (.inr (.inr (.inr (.inr (.inl (embeddedBefore h hd))))))
  · exact .inr (.inr (.inr (.inr (.inr (.inr (.inl (singleLine h hd)))))))
  · refine .inr (.inr (.inr (.inr (.inr (.inr (.inr (.inl ⟨twice h hd.1, ?_⟩)))))))
    simp only [at_iff h]
    exact hd.2
  · obtain ⟨s1, s2, h0, h1, h2, h3, h4⟩ := hd
    refine .inr (.inr (.inr (.inr (.inr (.inr (.inr (.inr (.inl ⟨s1, s2, h0, ?_⟩))))))))
    simp only [at_iff h]
    refine ⟨h1, h2, h3, fun h5 => h4 ?_⟩
    obtain ⟨l, hl, h6, h7⟩ := h5
    exact ⟨l, hl, by rw [← h.isBoundary l s1 (known_at h hl) (known_at h h1)]; exact h6,
      by rw [← h.isBoundary l s2 (known_at h hl) (known_at h h2)]; exact h7⟩
  · obtain ⟨h1, ⟨l, hl⟩, c, hc, h2, h3⟩ := hd
    refine .inr (.inr (.inr (.inr (.inr (.inr (.inr (.inr (.inr ⟨h.allMeshed.2 h1, ⟨l, activeAt h hl⟩, c, ?_⟩))))))))
    have hk := h.known c hc
    refine ⟨by rw [h.cmvs]; exact hc, (activeCmv h hk).2 h2, ?_⟩
    rw [h.isVertexOnBorder _ hk h2.2]
    exact h3

end

theorem vertexDefect {K : Uuid → Prop} {t t' : TopologyModel} {v v' : Index} (h : Agree K t t' v v') :
    SectionVertexDefect t' v' ↔ SectionVertexDefect t v := ⟨vertexDefect_of h.symm, vertexDefect_of h⟩

/-! ### components -/

section
variable {P : Type} {m : ModelData P}

/-- Different components have different ids. -/
theorem ids {lib : ModelLibrary P} (hm : MeshesOk lib m) :
    (∀ c ∈ m.corners, ∀ c' ∈ m.corners, c.id = c'.id → c = c') ∧ (∀ c ∈ m.lines, ∀ c' ∈ m.lines, c.id = c'.id → c = c') ∧
    (∀ c ∈ m.surfaces, ∀ c' ∈ m.surfaces, c.id = c'.id → c = c') ∧ (∀ c ∈ m.blocks, ∀ c' ∈ m.blocks, c.id = c'.id → c = c') ∧
    (∀ c ∈ m.corners, ∀ l ∈ m.lines, c.id ≠ l.id) ∧ (∀ c ∈ m.corners, ∀ s ∈ m.surfaces, c.id ≠ s.id) ∧
    (∀ c ∈ m.corners, ∀ b ∈ m.blocks, c.id ≠ b.id) ∧ (∀ l ∈ m.lines, ∀ s ∈ m.surfaces, l.id ≠ s.id) ∧
    (∀ l ∈ m.lines, ∀ b ∈ m.blocks, l.id ≠ b.id) ∧ (∀ s ∈ m.surfaces, ∀ b ∈ m.blocks, s.id ≠ b.id) := by
  have h := hm.ids
  rw [List.nodup_append, List.nodup_append, List.nodup_append] at h
  obtain ⟨⟨⟨h1, h2, h12⟩, h3, h123⟩, h4, h1234⟩ := h
  refine ⟨fun c hc c' hc' e => List.inj_on_of_nodup_map h1 hc hc' e, fun c hc c' hc' e => List.inj_on_of_nodup_map h2 hc hc' e,
    fun c hc c' hc' e => List.inj_on_of_nodup_map h3 hc hc' e, fun c hc c' hc' e => List.inj_on_of_nodup_map h4 hc hc' e,
    fun c hc l hl => h12 _ (List.mem_map_of_mem hc) _ (List.mem_map_of_mem hl),
    fun c hc l hl => h123 _ (List.mem_append_left _ (List.mem_map_of_mem hc)) _ (List.mem_map_of_mem hl),
    fun c hc l hl => h1234 _ (List.mem_append_left _ (List.mem_append_left _ (List.mem_map_of_mem hc))) _ (List.mem_map_of_mem hl),
    fun c hc l hl => h123 _ (List.mem_append_right _ (List.mem_map_of_mem hc)) _ (List.mem_map_of_mem hl),
    fun c hc l hl => h1234 _ (List.mem_append_left _ (List.mem_append_right _ (List.mem_map_of_mem hc))) _ (List.mem_map_of_mem hl),
    fun c hc l hl => h1234 _ (List.mem_append_right _ (List.mem_map_of_mem hc)) _ (List.mem_map_of_mem hl)⟩

end

section
variable {P : Type} {lib : ModelLibrary P} {m m1 : ModelData P} {ι : Index → Index} (h : IsPart ι m1 m) (hm : MeshesOk lib m)
include h hm

theorem corner_mem {c : CornerData P} (hc : c ∈ m.corners) (hid : HasId m1 c.id) : c ∈ m1.corners := by
  obtain ⟨i1, i2, i3, i4, i5, i6, i7, i8, i9, i10⟩ := ids hm
  rcases hid with ⟨x, hx, e⟩ | ⟨x, hx, e⟩ | ⟨x, hx, e⟩ | ⟨x, hx, e⟩
  · rw [← i1 x (h.corners x hx) c hc e]; exact hx
  · exact absurd e.symm (i5 c hc x (h.lines x hx))
  · exact absurd e.symm (i6 c hc x (h.surfaces x hx))
  · exact absurd e.symm (i7 c hc x (h.blocks x hx))

theorem line_mem {c : LineData P} (hc : c ∈ m.lines) (hid : HasId m1 c.id) : c ∈ m1.lines := by
  obtain ⟨i1, i2, i3, i4, i5, i6, i7, i8, i9, i10⟩ := ids hm
  rcases hid with ⟨x, hx, e⟩ | ⟨x, hx, e⟩ | ⟨x, hx, e⟩ | ⟨x, hx, e⟩
  · exact absurd e (i5 x (h.corners x hx) c hc)
  · rw [← i2 x (h.lines x hx) c hc e]; exact hx
  · exact absurd e.symm (i8 c hc x (h.surfaces x hx))
  · exact absurd e.symm (i9 c hc x (h.blocks x hx))

theorem surface_mem {c : FaceData P} (hc : c ∈ m.surfaces) (hid : HasId m1 c.id) : c ∈ m1.surfaces := by
  obtain ⟨i1, i2, i3, i4, i5, i6, i7, i8, i9, i10⟩ := ids hm
  rcases hid with ⟨x, hx, e⟩ | ⟨x, hx, e⟩ | ⟨x, hx, e⟩ | ⟨x, hx, e⟩
  · exact absurd e (i6 x (h.corners x hx) c hc)
  · exact absurd e (i8 x (h.lines x hx) c hc)
  · rw [← i3 x (h.surfaces x hx) c hc e]; exact hx
  · exact absurd e.symm (i10 c hc x (h.blocks x hx))

theorem block_mem {c : VolumeData P} (hc : c ∈ m.blocks) (hid : HasId m1 c.id) : c ∈ m1.blocks := by
  obtain ⟨i1, i2, i3, i4, i5, i6, i7, i8, i9, i10⟩ := ids hm
  rcases hid with ⟨x, hx, e⟩ | ⟨x, hx, e⟩ | ⟨x, hx, e⟩ | ⟨x, hx, e⟩
  · exact absurd e (i7 x (h.corners x hx) c hc)
  · exact absurd e (i9 x (h.lines x hx) c hc)
  · exact absurd e (i10 x (h.surfaces x hx) c hc)
  · rw [← i4 x (h.blocks x hx) c hc e]; exact hx

theorem isActiveId {id : Uuid} (hid : HasId m1 id) : IsActiveId m id ↔ IsActiveId m1 id := by
  constructor
  · rintro (⟨c, hc, rfl, ha⟩ | ⟨c, hc, rfl, ha⟩ | ⟨c, hc, rfl, ha⟩ | ⟨c, hc, rfl, ha⟩)
    exacts [.inl ⟨c, corner_mem h hm hc hid, rfl, ha⟩, .inr (.inl ⟨c, line_mem h hm hc hid, rfl, ha⟩),
      .inr (.inr (.inl ⟨c, surface_mem h hm hc hid, rfl, ha⟩)), .inr (.inr (.inr ⟨c, block_mem h hm hc hid, rfl, ha⟩))]
  · rintro (⟨c, hc, rfl, ha⟩ | ⟨c, hc, rfl, ha⟩ | ⟨c, hc, rfl, ha⟩ | ⟨c, hc, rfl, ha⟩)
    exacts [.inl ⟨c, h.corners c hc, rfl, ha⟩, .inr (.inl ⟨c, h.lines c hc, rfl, ha⟩),
      .inr (.inr (.inl ⟨c, h.surfaces c hc, rfl, ha⟩)), .inr (.inr (.inr ⟨c, h.blocks c hc, rfl, ha⟩))]

theorem pointsOf {c : ComponentID} (hid : HasId m1 c.id) (points : List P) : PointsOf m c points ↔ PointsOf m1 c points := by
  obtain ⟨type, id⟩ := c
  cases type with
  | corner => exact ⟨fun ⟨c, hc, e, hp⟩ => ⟨c, corner_mem h hm hc (by rw [e]; exact hid), e, hp⟩,
      fun ⟨c, hc, e, hp⟩ => ⟨c, h.corners c hc, e, hp⟩⟩
  | line => exact ⟨fun ⟨c, hc, e, hp⟩ => ⟨c, line_mem h hm hc (by rw [e]; exact hid), e, hp⟩,
      fun ⟨c, hc, e, hp⟩ => ⟨c, h.lines c hc, e, hp⟩⟩
  | surface => exact ⟨fun ⟨c, hc, e, hp⟩ => ⟨c, surface_mem h hm hc (by rw [e]; exact hid), e, hp⟩,
      fun ⟨c, hc, e, hp⟩ => ⟨c, h.surfaces c hc, e, hp⟩⟩
  | block => exact ⟨fun ⟨c, hc, e, hp⟩ => ⟨c, block_mem h hm hc (by rw [e]; exact hid), e, hp⟩,
      fun ⟨c, hc, e, hp⟩ => ⟨c, h.blocks c hc, e, hp⟩⟩
  | other => exact Iff.rfl

theorem isAt {cmv : ComponentMeshVertex} (hid : HasId m1 cmv.component_id.id) (p : P) :
    IsAt lib m cmv p ↔ IsAt lib m1 cmv p := by
  unfold IsAt
  simp only [pointsOf h hm hid]

end

/-- The components of the topology of a model. -/
theorem mem_components {P : Type} (m : ModelData P) (rt : ModelRuntime) (kind : ComponentType) (c : TopologyComponent) :
    c ∈ (m.topology rt).components kind ↔
      match kind with
      | .corner => ∃ x ∈ m.corners, c = ⟨x.id, x.active, x.points.length, 0⟩
      | .line => ∃ x ∈ m.lines, c = ⟨x.id, x.active, x.points.length, x.nbEdges⟩
      | .surface => ∃ x ∈ m.surfaces, c = ⟨x.id, x.active, x.points.length, x.nbPolygons⟩
      | .block => ∃ x ∈ m.blocks, c = ⟨x.id, x.active, x.points.length, x.nbPolyhedra⟩
      | .other => False := by
  cases kind <;> simp only [ModelData.topology, List.mem_map, List.not_mem_nil, eq_comm]

theorem hasId_component {P : Type} {m : ModelData P} {rt : ModelRuntime} {kind : ComponentType} {c : TopologyComponent}
    (hc : c ∈ (m.topology rt).components kind) : HasId m c.id := by
  rw [mem_components] at hc
  cases kind with
  | corner => obtain ⟨x, hx, rfl⟩ := hc; exact .inl ⟨x, hx, rfl⟩
  | line => obtain ⟨x, hx, rfl⟩ := hc; exact .inr (.inl ⟨x, hx, rfl⟩)
  | surface => obtain ⟨x, hx, rfl⟩ := hc; exact .inr (.inr (.inl ⟨x, hx, rfl⟩))
  | block => obtain ⟨x, hx, rfl⟩ := hc; exact .inr (.inr (.inr ⟨x, hx, rfl⟩))
  | other => exact hc.elim

theorem hasId_of_has {P : Type} {m : ModelData P} {rt : ModelRuntime} {kind : ComponentType} {id : Uuid}
    (hh : Has (m.topology rt) kind id) : HasId m id := by
  obtain ⟨c, hc, rfl⟩ := hh
  exact hasId_component hc

section
variable {P : Type} {lib : ModelLibrary P} {m m1 : ModelData P} {ι : Index → Index} (h : IsPart ι m1 m) (hm : MeshesOk lib m)
  (rt rt1 : ModelRuntime)
include h

theorem component_of {kind : ComponentType} {c : TopologyComponent} (hc : c ∈ (m1.topology rt1).components kind) :
    c ∈ (m.topology rt).components kind := by
  rw [mem_components] at hc ⊢
  cases kind with
  | corner => obtain ⟨x, hx, e⟩ := hc; exact ⟨x, h.corners x hx, e⟩
  | line => obtain ⟨x, hx, e⟩ := hc; exact ⟨x, h.lines x hx, e⟩
  | surface => obtain ⟨x, hx, e⟩ := hc; exact ⟨x, h.surfaces x hx, e⟩
  | block => obtain ⟨x, hx, e⟩ := hc; exact ⟨x, h.blocks x hx, e⟩
  | other => exact hc.elim

include hm

theorem component_back {kind : ComponentType} {c : TopologyComponent} (hc : c ∈ (m.topology rt).components kind)
    (hid : HasId m1 c.id) : c ∈ (m1.topology rt1).components kind := by
  rw [mem_components] at hc ⊢
  cases kind with
  | corner => obtain ⟨x, hx, e⟩ := hc; exact ⟨x, corner_mem h hm hx (by rw [e] at hid; exact hid), e⟩
  | line => obtain ⟨x, hx, e⟩ := hc; exact ⟨x, line_mem h hm hx (by rw [e] at hid; exact hid), e⟩
  | surface => obtain ⟨x, hx, e⟩ := hc; exact ⟨x, surface_mem h hm hx (by rw [e] at hid; exact hid), e⟩
  | block => obtain ⟨x, hx, e⟩ := hc; exact ⟨x, block_mem h hm hx (by rw [e] at hid; exact hid), e⟩
  | other => exact hc.elim

theorem active (kind : ComponentType) {id : Uuid} (hid : HasId m1 id) :
    Active (m.topology rt) kind id ↔ Active (m1.topology rt1) kind id := by
  constructor
  · rintro ⟨c, hc, e, ha⟩
    exact ⟨c, component_back h hm rt rt1 hc (by rw [e]; exact hid), e, ha⟩
  · rintro ⟨c, hc, e, ha⟩
    exact ⟨c, component_of h rt rt1 hc, e, ha⟩

theorem cmvExists (kinds : List ComponentType) {cmv : ComponentMeshVertex} (hid : HasId m1 cmv.component_id.id) :
    CmvExists (m.topology rt) kinds cmv ↔ CmvExists (m1.topology rt1) kinds cmv := by
  constructor
  · rintro ⟨hk, c, hc, e, ha⟩
    exact ⟨hk, c, component_back h hm rt rt1 hc (by rw [e]; exact hid), e, ha⟩
  · rintro ⟨hk, c, hc, e, ha⟩
    exact ⟨hk, c, component_of h rt rt1 hc, e, ha⟩

theorem agree (w1 : WellFormed (m1.topology rt1)) (u : Index) (hu : u < m1.nbUniqueVertices)
    (hall : AllMeshed (m.topology rt) .surface ↔ AllMeshed (m1.topology rt1) .surface) :
    Agree (HasId m1) (m1.topology rt1) (m.topology rt) u (ι u) where
  cmvs := h.componentMeshVertices u hu
  known c hc := hasId_of_has (w1.vertices u hu c hc)
  knownEmbeddings id _ e he := hasId_of_has (w1.embeddings id e he)
  active kind _ hid := active h hm rt rt1 kind hid
  embeddings := h.embeddings
  incidences := h.incidences
  isBoundary := h.isBoundary
  isInternal := h.isInternal
  isVertexOnBorder id _ ha := by
    obtain ⟨c, hc, e, _⟩ := ha
    rw [mem_components] at hc
    obtain ⟨x, hx, e'⟩ := hc
    have : x.id = id := by rw [← e, e']
    exact this ▸ h.isVertexOnBorder x hx
  allMeshed := hall

theorem linkedAt (w1 : WellFormed (m1.topology rt1)) (kinds : List ComponentType) (u : Index) (hu : u < m1.nbUniqueVertices) :
    ((m.topology rt).componentMeshVertices (ι u) ≠ [] ∧ ∀ cmv ∈ (m.topology rt).componentMeshVertices (ι u),
      CmvExists (m.topology rt) kinds cmv ∧ (Active (m.topology rt) cmv.component_id.type cmv.component_id.id →
        (m.topology rt).uniqueVertex cmv = some (ι u))) ↔
    ((m1.topology rt1).componentMeshVertices u ≠ [] ∧ ∀ cmv ∈ (m1.topology rt1).componentMeshVertices u,
      CmvExists (m1.topology rt1) kinds cmv ∧ (Active (m1.topology rt1) cmv.component_id.type cmv.component_id.id →
        (m1.topology rt1).uniqueVertex cmv = some u)) := by
  have he : (m.topology rt).componentMeshVertices (ι u) = (m1.topology rt1).componentMeshVertices u :=
    h.componentMeshVertices u hu
  rw [he]
  refine and_congr_right fun _ => forall_congr' fun cmv => forall_congr' fun hc => ?_
  have hid : HasId m1 cmv.component_id.id := hasId_of_has (w1.vertices u hu cmv hc)
  rw [cmvExists h hm rt rt1 kinds hid, active h hm rt rt1 _ hid]
  have hu : (m.topology rt).uniqueVertex cmv = some (ι u) ↔ (m1.topology rt1).uniqueVertex cmv = some u := by
    show m.uniqueVertex cmv = some (ι u) ↔ m1.uniqueVertex cmv = some u
    rw [h.uniqueVertex cmv hid]
    cases m1.uniqueVertex cmv with
    | none => simp
    | some x => simp [h.injective.eq_iff]
  rw [hu]

theorem firstActive (w1 : WellFormed (m1.topology rt1)) (u : Index) (hu : u < m1.nbUniqueVertices)
    (f : ComponentMeshVertex) : FirstActive m (ι u) f ↔ FirstActive m1 u f := by
  unfold FirstActive
  rw [h.componentMeshVertices u hu]
  refine exists_congr fun pre => exists_congr fun post => and_congr_right fun e => ?_
  have hk : ∀ c ∈ pre ++ f :: post, HasId m1 c.component_id.id := by
    rw [← e]
    exact fun c hc => hasId_of_has (w1.vertices u hu c hc)
  rw [isActiveId h hm (hk f (by simp))]
  refine and_congr_right fun _ => forall_congr' fun c => forall_congr' fun hc => ?_
  rw [isActiveId h hm (hk c (by simp [hc]))]

theorem differentPoints (w1 : WellFormed (m1.topology rt1)) (u : Index) (hu : u < m1.nbUniqueVertices) :
    PlainDifferentPoints lib m (ι u) ↔ PlainDifferentPoints lib m1 u := by
  unfold PlainDifferentPoints
  simp only [firstActive h hm rt1 w1 u hu, h.componentMeshVertices u hu]
  have hk : ∀ c ∈ m1.componentMeshVertices u, HasId m1 c.component_id.id :=
    fun c hc => hasId_of_has (w1.vertices u hu c hc)
  refine exists_congr fun f => exists_congr fun p => exists_congr fun c => exists_congr fun q => and_congr_right fun hf => ?_
  have hf' : f ∈ m1.componentMeshVertices u := by
    obtain ⟨pre, post, e, _⟩ := hf
    rw [e]; simp
  rw [isAt h hm (hk f hf')]
  refine and_congr_right fun _ => and_congr_right fun hc => ?_
  rw [isActiveId h hm (hk c hc), isAt h hm (hk c hc)]

end

/-! ### numbers -/

section
variable {P : Type} {lib : ModelLibrary P}

/-- The number of a unique vertex is that of the vertex, or `NO_ID`. -/
theorem numberOf_iff (m : ModelData P) (kind : ComponentType) (id : Uuid) (v n : Index) :
    NumberOf m kind id v n ↔ n = (m.uniqueVertex ⟨⟨kind, id⟩, v⟩).getD m.noId := by
  unfold NumberOf
  cases m.uniqueVertex ⟨⟨kind, id⟩, v⟩ with
  | none => simp
  | some x => simp [eq_comm]

theorem getD_inj {m : ModelData P} (hn : NoIdIsFree m) (c c' : ComponentMeshVertex) :
    (m.uniqueVertex c).getD m.noId = (m.uniqueVertex c').getD m.noId ↔ m.uniqueVertex c = m.uniqueVertex c' := by
  have h1 := hn c
  have h2 := hn c'
  cases e1 : m.uniqueVertex c with
  | none =>
    cases e2 : m.uniqueVertex c' with
    | none => simp
    | some y =>
      rw [e2] at h2
      simp only [Option.getD_none, Option.getD_some, reduceCtorEq, iff_false]
      exact fun e => h2 (by rw [e])
  | some x =>
    rw [e1] at h1
    cases e2 : m.uniqueVertex c' with
    | none =>
      simp only [Option.getD_none, Option.getD_some, reduceCtorEq, iff_false]
      exact fun e => h1 (by rw [e])
    | some y => simp

theorem split_iff {m : ModelData P} (hn : NoIdIsFree m) (kind : ComponentType) (id : Uuid) (points : List P) :
    PlainSplitVertices lib m kind id points ↔ ∃ i j, i < points.length ∧ j < points.length ∧
      Colocated (lib.search points) i j ∧ m.uniqueVertex ⟨⟨kind, id⟩, i⟩ ≠ m.uniqueVertex ⟨⟨kind, id⟩, j⟩ := by
  unfold PlainSplitVertices
  refine exists_congr fun i => exists_congr fun j => and_congr_right fun _ => and_congr_right fun _ =>
    and_congr_right fun _ => ?_
  simp only [numberOf_iff]
  constructor
  · rintro ⟨_, _, rfl, rfl, h3⟩
    exact fun e => h3 ((getD_inj hn _ _).2 e)
  · exact fun h3 => ⟨_, _, rfl, rfl, fun e => h3 ((getD_inj hn _ _).1 e)⟩

end

section
variable {P : Type} {lib : ModelLibrary P} {m m1 : ModelData P} {ι : Index → Index} (h : IsPart ι m1 m)
  (hn : NoIdIsFree m) (hn1 : NumbersKnown m1)
include h

theorem uniqueVertex_inj {c c' : ComponentMeshVertex} (hc : HasId m1 c.component_id.id) (hc' : HasId m1 c'.component_id.id) :
    m.uniqueVertex c = m.uniqueVertex c' ↔ m1.uniqueVertex c = m1.uniqueVertex c' := by
  rw [h.uniqueVertex c hc, h.uniqueVertex c' hc']
  exact (Option.map_injective h.injective).eq_iff

include hn hn1

theorem splitVertices (kind : ComponentType) {id : Uuid} (hid : HasId m1 id) (points : List P) :
    PlainSplitVertices lib m kind id points ↔ PlainSplitVertices lib m1 kind id points := by
  rw [split_iff hn, split_iff hn1.noId]
  simp only [ne_eq, uniqueVertex_inj h (c := ⟨⟨kind, id⟩, _⟩) (c' := ⟨⟨kind, id⟩, _⟩) hid hid]

theorem lineDefect {l : LineData P} (hl : l ∈ m1.lines) : PlainLineDefect lib m l ↔ PlainLineDefect lib m1 l := by
  unfold PlainLineDefect
  rw [splitVertices h hn hn1 .line (.inr (.inl ⟨l, hl, rfl⟩))]

omit hn in
theorem borderNotOnLine {s : FaceData P} (hs : s ∈ m1.surfaces) (x : PolygonEdge) :
    BorderNotOnLine m s x ↔ BorderNotOnLine m1 s x := by
  have hid : HasId m1 s.id := .inr (.inr (.inl ⟨s, hs, rfl⟩))
  unfold BorderNotOnLine
  refine and_congr_right fun _ => and_congr_right fun _ => not_congr ?_
  refine exists_congr fun a => exists_congr fun b => ?_
  constructor
  · rintro ⟨u, v, h1, h2, h3, h4, h5, h6⟩
    rw [h.uniqueVertex ⟨⟨.surface, s.id⟩, a⟩ hid, Option.map_eq_some_iff] at h2
    rw [h.uniqueVertex ⟨⟨.surface, s.id⟩, b⟩ hid, Option.map_eq_some_iff] at h3
    obtain ⟨u1, e1, rfl⟩ := h2
    obtain ⟨v1, e2, rfl⟩ := h3
    have l1 := hn1.range _ _ e1
    have l2 := hn1.range _ _ e2
    exact ⟨u1, v1, h1, e1, e2, l1, l2, fun e => h6 ((h.lineComponentMeshEdges u1 v1 l1 l2).2 e)⟩
  · rintro ⟨u, v, h1, h2, h3, h4, h5, h6⟩
    refine ⟨ι u, ι v, h1, ?_, ?_, h.numbers u h4, h.numbers v h5, fun e => h6 ((h.lineComponentMeshEdges u v h4 h5).1 e)⟩
    · rw [h.uniqueVertex ⟨⟨.surface, s.id⟩, a⟩ hid, h2]; rfl
    · rw [h.uniqueVertex ⟨⟨.surface, s.id⟩, b⟩ hid, h3]; rfl

theorem surfaceDefect {s : FaceData P} (hs : s ∈ m1.surfaces) : PlainSurfaceDefect lib m s ↔ PlainSurfaceDefect lib m1 s := by
  unfold PlainSurfaceDefect
  rw [splitVertices h hn hn1 .surface (.inr (.inr (.inl ⟨s, hs, rfl⟩)))]
  simp only [borderNotOnLine h hn1 hs]

end

/-! ### polygons -/

/-- A Surface with the numbers of unique vertices of a model. -/
def withUv {P : Type} (m : ModelData P) (s : FaceData P) (r : ModelSurface P) : ModelSurface P :=
  { r with uniqueVertex := fun v => (m.uniqueVertex ⟨⟨.surface, s.id⟩, v⟩).getD m.noId }

section
variable {P : Type} {lib : ModelLibrary P} {m : ModelData P}

theorem given_withUv {s : FaceData P} {r : ModelSurface P} (g : GivenSurface lib m s r) (m' : ModelData P) :
    GivenSurface lib m' s (withUv m' s r) :=
  ⟨g.id, g.active, g.nbPolygons, g.polygonVertices, g.nbVertices, g.point, fun v => (numberOf_iff _ _ _ _ _).2 rfl⟩

theorem given_eq {s : FaceData P} {r : ModelSurface P} (g : GivenSurface lib m s r) : r = withUv m s r := by
  have : r.uniqueVertex = (withUv m s r).uniqueVertex := by
    funext v
    exact (numberOf_iff _ _ _ _ _).1 (g.uniqueVertex v)
  obtain ⟨⟩ := r
  unfold withUv at this ⊢
  simp only at this
  simp only [this]

end

section
variable {P : Type} {lib : ModelLibrary P} {m m1 : ModelData P} {ι : Index → Index} (h : IsPart ι m1 m)
  (hn : NoIdIsFree m) (hn1 : NumbersKnown m1)
include h hn hn1

theorem shared {s1 s2 : FaceData P} (h1 : s1 ∈ m1.surfaces) (h2 : s2 ∈ m1.surfaces) (r1 r2 : ModelSurface P) :
    Shared (withUv m s1 r1) (withUv m s2 r2) = Shared (withUv m1 s1 r1) (withUv m1 s2 r2) := by
  funext v w
  have e := uniqueVertex_inj h (c := ⟨⟨.surface, s1.id⟩, v⟩) (c' := ⟨⟨.surface, s2.id⟩, w⟩)
    (.inr (.inr (.inl ⟨s1, h1, rfl⟩))) (.inr (.inr (.inl ⟨s2, h2, rfl⟩)))
  exact propext ((getD_inj hn _ _).trans (e.trans (getD_inj hn1.noId _ _).symm))

theorem common {s1 s2 : FaceData P} (h1 : s1 ∈ m1.surfaces) (h2 : s2 ∈ m1.surfaces) (r1 r2 : ModelSurface P)
    (t1 t2 : List Index) (c : List (Index × Index)) :
    CommonVertices (withUv m s1 r1) (withUv m s2 r2) t1 t2 c ↔ CommonVertices (withUv m1 s1 r1) (withUv m1 s2 r2) t1 t2 c := by
  have he := shared h hn hn1 h1 h2 r1 r2
  have hs : ∀ v, IsShared (withUv m s1 r1) (withUv m s2 r2) t2 v ↔ IsShared (withUv m1 s1 r1) (withUv m1 s2 r2) t2 v := by
    intro v
    unfold IsShared
    rw [he]
  constructor
  · rintro ⟨h1, h2⟩
    rw [he] at h2
    exact ⟨by rw [h1]; exact List.filter_congr fun v _ => decide_eq_decide.2 (hs v), h2⟩
  · rintro ⟨h1, h2⟩
    refine ⟨by rw [h1]; exact List.filter_congr fun v _ => decide_eq_decide.2 (hs v).symm, ?_⟩
    rw [he]
    exact h2

theorem sectionMeet {s1 s2 : FaceData P} (h1 : s1 ∈ m1.surfaces) (h2 : s2 ∈ m1.surfaces) (r1 r2 : ModelSurface P)
    (t1 t2 : List Index) : SectionTrianglesMeet lib.geometry (withUv m s1 r1) (withUv m s2 r2) t1 t2 ↔
      SectionTrianglesMeet lib.geometry (withUv m1 s1 r1) (withUv m1 s2 r2) t1 t2 := by
  unfold SectionTrianglesMeet
  simp only [common h hn hn1 h1 h2]
  rfl

/-- Two polygons of the Surfaces of a part meet in the model when they meet in the part. -/
theorem meet_part {s1 s2 : FaceData P} (h1 : s1 ∈ m1.surfaces) (h2 : s2 ∈ m1.surfaces) {r1 r2 : ModelSurface P}
    (g1 : GivenSurface lib m s1 r1) (g2 : GivenSurface lib m s2 r2) {t1 t2 : List Index}
    (hmeet : SectionTrianglesMeet lib.geometry r1 r2 t1 t2) :
    SectionTrianglesMeet lib.geometry (withUv m1 s1 r1) (withUv m1 s2 r2) t1 t2 := by
  rw [given_eq g1, given_eq g2] at hmeet
  exact (sectionMeet h hn hn1 h1 h2 r1 r2 t1 t2).1 hmeet

theorem meet_whole {s1 s2 : FaceData P} (h1 : s1 ∈ m1.surfaces) (h2 : s2 ∈ m1.surfaces) {r1 r2 : ModelSurface P}
    (g1 : GivenSurface lib m1 s1 r1) (g2 : GivenSurface lib m1 s2 r2) {t1 t2 : List Index}
    (hmeet : SectionTrianglesMeet lib.geometry r1 r2 t1 t2) :
    SectionTrianglesMeet lib.geometry (withUv m s1 r1) (withUv m s2 r2) t1 t2 := by
  rw [given_eq g1, given_eq g2] at hmeet
  exact (sectionMeet h hn hn1 h1 h2 r1 r2 t1 t2).2 hmeet

theorem polygonsMeet_of (hd : PlainPolygonsMeet lib m1 (SectionTrianglesMeet lib.geometry)) :
    PlainPolygonsMeet lib m (SectionTrianglesMeet lib.geometry) := by
  obtain ⟨s1, s2, r1, r2, p, q, h1, a1, h2, a2, g1, g2, hp, hq, hne, t1, ht1, t2, ht2, hmeet⟩ := hd
  exact ⟨s1, s2, withUv m s1 r1, withUv m s2 r2, p, q, h.surfaces s1 h1, a1, h.surfaces s2 h2, a2, given_withUv g1 m,
    given_withUv g2 m, hp, hq, hne, t1, ht1, t2, ht2, meet_whole h hn hn1 h1 h2 g1 g2 hmeet⟩

end

/-! ### the whole Section -/

section
variable {P : Type} {lib : ModelLibrary P} {m m1 m2 : ModelData P} {ι1 ι2 : Index → Index}

/-- What is assumed of a Section and one of its parts. -/
structure Setting (lib : ModelLibrary P) (rt rt1 : ModelRuntime) (near : P → P → Prop) (ι : Index → Index)
    (m m1 : ModelData P) : Prop where
  part : IsPart ι m1 m
  meshes : MeshesOk lib m
  meshes1 : MeshesOk lib m1
  types : KnownTypes false (m.uniqueVertices lib)
  types1 : KnownTypes false (m1.uniqueVertices lib)
  noId : NoIdIsFree m
  numbers : NumbersKnown m1
  topology1 : WellFormed (m1.topology rt1)
  search : UniqueVerticesNear lib near m
  search1 : UniqueVerticesNear lib near m1
  allMeshed : AllMeshed (m.topology rt) .surface ↔ AllMeshed (m1.topology rt1) .surface

/-- A defect of a part is a defect of the whole. -/
theorem whole_of_part {rt rt1 : ModelRuntime} {near : P → P → Prop} {ι : Index → Index} (s : Setting lib rt rt1 near ι m m1)
    (hd : PlainSectionDefect lib m1) : PlainSectionDefect lib m := by
  have h := s.part
  have hm := s.meshes
  have ht := Plain.topology_iff s.meshes rt SectionTopologyDefect (fun _ _ _ _ _ _ _ hd => hd)
  have ht1 := Plain.topology_iff s.meshes1 rt1 SectionTopologyDefect (fun _ _ _ _ _ _ _ hd => hd)
  rcases hd with ⟨u, hu, hd⟩ | hd | ⟨l, hl, ha, hd⟩ | ⟨x, hx, ha, hd⟩ | hd | hd
  · exact .inl ⟨ι u, h.numbers u hu, (differentPoints h hm rt1 s.topology1 u hu).2 hd⟩
  · refine .inr (.inl ?_)
    rw [Numbers.colocated_near s.meshes1 s.types1 s.search1] at hd
    rw [Numbers.colocated_near s.meshes s.types s.search]
    obtain ⟨u, v, p, q, fu, fv, hu, hv, huv, hfu, hpu, hfv, hpv, hnear⟩ := hd
    have hk : ∀ u f, u < m1.nbUniqueVertices → FirstActive m1 u f → HasId m1 f.component_id.id := by
      rintro u f hu ⟨pre, post, e, _⟩
      exact hasId_of_has (s.topology1.vertices u hu f (by
        show f ∈ m1.componentMeshVertices u
        rw [e]; simp))
    exact ⟨ι u, ι v, p, q, fu, fv, h.numbers u hu, h.numbers v hv, fun e => huv (h.injective e),
      (firstActive h hm rt1 s.topology1 u hu fu).2 hfu, (isAt h hm (hk u fu hu hfu) p).2 hpu,
      (firstActive h hm rt1 s.topology1 v hv fv).2 hfv, (isAt h hm (hk v fv hv hfv) q).2 hpv, hnear⟩
  · exact .inr (.inr (.inl ⟨l, h.lines l hl, ha, (lineDefect h s.noId s.numbers hl).2 hd⟩))
  · exact .inr (.inr (.inr (.inl ⟨x, h.surfaces x hx, ha, hd.imp_left (surfaceDefect h s.noId s.numbers hx).2⟩)))
  · exact .inr (.inr (.inr (.inr (.inl (polygonsMeet_of h s.noId s.numbers hd)))))
  · refine .inr (.inr (.inr (.inr (.inr ?_))))
    rw [← ht1] at hd
    rw [← ht]
    rcases hd with hd | ⟨kind, hk, c, hc, ha, hd⟩ | ⟨kind, hk, c, hc, ha, v, hd⟩ | ⟨u, hu, hd⟩
    · refine .inl fun hb => hd fun u hu => ?_
      exact (linkedAt h hm rt rt1 s.topology1 sectionKinds u hu).1 (hb (ι u) (h.numbers u hu))
    · exact .inr (.inl ⟨kind, hk, c, component_of h rt rt1 hc, ha, hd⟩)
    · refine .inr (.inr (.inl ⟨kind, hk, c, component_of h rt rt1 hc, ha, v, hd.1, ?_⟩))
      show m.uniqueVertex _ = none
      rw [h.uniqueVertex ⟨⟨kind, c.id⟩, v⟩ (hasId_component hc)]
      exact Option.map_eq_none_iff.2 hd.2
    · exact .inr (.inr (.inr ⟨ι u, h.numbers u hu, (vertexDefect (agree h hm rt rt1 s.topology1 u hu s.allMeshed)).2 hd⟩))

/-- A component of the model is in one of its parts. -/
theorem component_parts (h : MadeOf m m1 m2 ι1 ι2) (rt rt1 rt2 : ModelRuntime) {kind : ComponentType} {c : TopologyComponent}
    (hc : c ∈ (m.topology rt).components kind) :
    c ∈ (m1.topology rt1).components kind ∨ c ∈ (m2.topology rt2).components kind := by
  simp only [mem_components] at hc ⊢
  cases kind with
  | corner => obtain ⟨x, hx, e⟩ := hc; exact (h.corners x hx).imp (fun y => ⟨x, y, e⟩) fun y => ⟨x, y, e⟩
  | line => obtain ⟨x, hx, e⟩ := hc; exact (h.lines x hx).imp (fun y => ⟨x, y, e⟩) fun y => ⟨x, y, e⟩
  | surface => obtain ⟨x, hx, e⟩ := hc; exact (h.surfaces x hx).imp (fun y => ⟨x, y, e⟩) fun y => ⟨x, y, e⟩
  | block => obtain ⟨x, hx, e⟩ := hc; exact (h.blocks x hx).imp (fun y => ⟨x, y, e⟩) fun y => ⟨x, y, e⟩
  | other => exact hc.elim

/-- The first active link of a unique vertex exists, or the topology has a defect. -/
theorem isAt_points {rt1 : ModelRuntime} (w1 : WellFormed (m1.topology rt1)) {u : Index} (hu : u < m1.nbUniqueVertices)
    {f : ComponentMeshVertex} (hf : f ∈ m1.componentMeshVertices u) {kinds : List ComponentType}
    (hlink : BijectivelyLinked (m1.topology rt1) kinds)
    {p : P} (hp : IsAt lib m1 f p) : ∃ c points, PointsOf m1 c points ∧ p ∈ points := by
  rcases hp with ⟨points, h1, h2⟩ | ⟨h1, _⟩
  · exact ⟨_, points, h1, List.mem_of_getElem? h2⟩
  · exfalso
    apply h1
    obtain ⟨⟨_, c, hc, e, hlt⟩, _⟩ := (hlink u hu).2 f hf
    obtain ⟨⟨type, id⟩, v⟩ := f
    rw [mem_components] at hc
    simp only at hc e hlt
    cases type with
    | corner => obtain ⟨x, hx, e'⟩ := hc; subst e'; exact ⟨_, _, ⟨x, hx, e, rfl⟩, List.getElem?_eq_getElem hlt⟩
    | line => obtain ⟨x, hx, e'⟩ := hc; subst e'; exact ⟨_, _, ⟨x, hx, e, rfl⟩, List.getElem?_eq_getElem hlt⟩
    | surface => obtain ⟨x, hx, e'⟩ := hc; subst e'; exact ⟨_, _, ⟨x, hx, e, rfl⟩, List.getElem?_eq_getElem hlt⟩
    | block => obtain ⟨x, hx, e'⟩ := hc; subst e'; exact ⟨_, _, ⟨x, hx, e, rfl⟩, List.getElem?_eq_getElem hlt⟩
    | other => exact hc.elim

/-- A defect of the whole is a defect of a part. -/
theorem part_of_whole {rt rt1 rt2 : ModelRuntime} {near : P → P → Prop} (h : MadeOf m m1 m2 ι1 ι2)
    (far : FarApart lib (SectionTrianglesMeet lib.geometry) near m m1 m2) (s1 : Setting lib rt rt1 near ι1 m m1) (s2 : Setting lib rt rt2 near ι2 m m2)
    (hd : PlainSectionDefect lib m) : PlainSectionDefect lib m1 ∨ PlainSectionDefect lib m2 := by
  have hm := s1.meshes
  have ht := Plain.topology_iff s1.meshes rt SectionTopologyDefect (fun _ _ _ _ _ _ _ hd => hd)
  have ht1 := Plain.topology_iff s1.meshes1 rt1 SectionTopologyDefect (fun _ _ _ _ _ _ _ hd => hd)
  have ht2 := Plain.topology_iff s2.meshes1 rt2 SectionTopologyDefect (fun _ _ _ _ _ _ _ hd => hd)
  rcases hd with ⟨u, hu, hd⟩ | hd | ⟨l, hl, ha, hd⟩ | ⟨x, hx, ha, hd⟩ | hd | hd
  · rcases h.vertices u hu with ⟨v, hv, rfl⟩ | ⟨v, hv, rfl⟩
    · exact .inl (.inl ⟨v, hv, (differentPoints h.first hm rt1 s1.topology1 v hv).1 hd⟩)
    · exact .inr (.inl ⟨v, hv, (differentPoints h.second hm rt2 s2.topology1 v hv).1 hd⟩)
  · by_cases hl1 : BijectivelyLinked (m1.topology rt1) sectionKinds
    swap
    · exact .inl (.inr (.inr (.inr (.inr (.inr (ht1.1 (.inl hl1)))))))
    by_cases hl2 : BijectivelyLinked (m2.topology rt2) sectionKinds
    swap
    · exact .inr (.inr (.inr (.inr (.inr (.inr (ht2.1 (.inl hl2)))))))
    rw [Numbers.colocated_near s1.meshes s1.types s1.search] at hd
    obtain ⟨u, v, p, q, fu, fv, hu, hv, huv, hfu, hpu, hfv, hpv, hnear⟩ := hd
    have hmem1 : ∀ u f, FirstActive m1 u f → f ∈ m1.componentMeshVertices u := by
      rintro u f ⟨pre, post, e, _⟩
      rw [e]; simp
    have hmem2 : ∀ u f, FirstActive m2 u f → f ∈ m2.componentMeshVertices u := by
      rintro u f ⟨pre, post, e, _⟩
      rw [e]; simp
    have side1 : ∀ u f p, u < m1.nbUniqueVertices → FirstActive m (ι1 u) f → IsAt lib m f p →
        FirstActive m1 u f ∧ IsAt lib m1 f p := by
      intro u f p hu hf hp
      have hf1 := (firstActive h.first hm rt1 s1.topology1 u hu f).1 hf
      exact ⟨hf1, (isAt h.first hm (hasId_of_has (s1.topology1.vertices u hu f (hmem1 u f hf1))) p).1 hp⟩
    have side2 : ∀ u f p, u < m2.nbUniqueVertices → FirstActive m (ι2 u) f → IsAt lib m f p →
        FirstActive m2 u f ∧ IsAt lib m2 f p := by
      intro u f p hu hf hp
      have hf1 := (firstActive h.second hm rt2 s2.topology1 u hu f).1 hf
      exact ⟨hf1, (isAt h.second hm (hasId_of_has (s2.topology1.vertices u hu f (hmem2 u f hf1))) p).1 hp⟩
    rcases h.vertices u hu with ⟨u1, hu1, rfl⟩ | ⟨u1, hu1, rfl⟩ <;> rcases h.vertices v hv with ⟨v1, hv1, rfl⟩ | ⟨v1, hv1, rfl⟩
    · obtain ⟨a1, a2⟩ := side1 u1 fu p hu1 hfu hpu
      obtain ⟨b1, b2⟩ := side1 v1 fv q hv1 hfv hpv
      refine .inl (.inr (.inl ?_))
      rw [Numbers.colocated_near s1.meshes1 s1.types1 s1.search1]
      exact ⟨u1, v1, p, q, fu, fv, hu1, hv1, fun e => huv (congrArg ι1 e), a1, a2, b1, b2, hnear⟩
    · obtain ⟨a1, a2⟩ := side1 u1 fu p hu1 hfu hpu
      obtain ⟨b1, b2⟩ := side2 v1 fv q hv1 hfv hpv
      obtain ⟨c1, ps1, e1, i1⟩ := isAt_points s1.topology1 hu1 (hmem1 _ _ a1) hl1 a2
      obtain ⟨c2, ps2, e2, i2⟩ := isAt_points s2.topology1 hv1 (hmem2 _ _ b1) hl2 b2
      exact absurd hnear (far.points c1 c2 ps1 ps2 e1 e2 p i1 q i2).1
    · obtain ⟨a1, a2⟩ := side2 u1 fu p hu1 hfu hpu
      obtain ⟨b1, b2⟩ := side1 v1 fv q hv1 hfv hpv
      obtain ⟨c1, ps1, e1, i1⟩ := isAt_points s2.topology1 hu1 (hmem2 _ _ a1) hl2 a2
      obtain ⟨c2, ps2, e2, i2⟩ := isAt_points s1.topology1 hv1 (hmem1 _ _ b1) hl1 b2
      exact absurd hnear (far.points c2 c1 ps2 ps1 e2 e1 q i2 p i1).2
    · obtain ⟨a1, a2⟩ := side2 u1 fu p hu1 hfu hpu
      obtain ⟨b1, b2⟩ := side2 v1 fv q hv1 hfv hpv
      refine .inr (.inr (.inl ?_))
      rw [Numbers.colocated_near s2.meshes1 s2.types1 s2.search1]
      exact ⟨u1, v1, p, q, fu, fv, hu1, hv1, fun e => huv (congrArg ι2 e), a1, a2, b1, b2, hnear⟩
  · rcases h.lines l hl with hl | hl
    · exact .inl (.inr (.inr (.inl ⟨l, hl, ha, (lineDefect h.first s1.noId s1.numbers hl).1 hd⟩)))
    · exact .inr (.inr (.inr (.inl ⟨l, hl, ha, (lineDefect h.second s2.noId s2.numbers hl).1 hd⟩)))
  · rcases h.surfaces x hx with hx | hx
    · exact .inl (.inr (.inr (.inr (.inl ⟨x, hx, ha, hd.imp_left (surfaceDefect h.first s1.noId s1.numbers hx).1⟩))))
    · exact .inr (.inr (.inr (.inr (.inl ⟨x, hx, ha, hd.imp_left (surfaceDefect h.second s2.noId s2.numbers hx).1⟩))))
  · obtain ⟨x1, x2, r1, r2, p, q, h1, a1, h2, a2, g1, g2, hp, hq, hne, t1, ht1, t2, ht2, hmeet⟩ := hd
    rcases h.surfaces x1 h1 with h1 | h1 <;> rcases h.surfaces x2 h2 with h2 | h2
    · exact .inl (.inr (.inr (.inr (.inr (.inl ⟨x1, x2, withUv m1 x1 r1, withUv m1 x2 r2, p, q, h1, a1, h2, a2,
        given_withUv g1 m1, given_withUv g2 m1, hp, hq, hne, t1, ht1, t2, ht2,
        meet_part h.first s1.noId s1.numbers h1 h2 g1 g2 hmeet⟩)))))
    · exact absurd hmeet (far.polygons x1 h1 x2 h2 a1 a2 r1 r2 g1 g2 p q hp hq t1 ht1 t2 ht2).1
    · exact absurd hmeet (far.polygons x2 h2 x1 h1 a2 a1 r2 r1 g2 g1 q p hq hp t2 ht2 t1 ht1).2
    · exact .inr (.inr (.inr (.inr (.inr (.inl ⟨x1, x2, withUv m2 x1 r1, withUv m2 x2 r2, p, q, h1, a1, h2, a2,
        given_withUv g1 m2, given_withUv g2 m2, hp, hq, hne, t1, ht1, t2, ht2,
        meet_part h.second s2.noId s2.numbers h1 h2 g1 g2 hmeet⟩)))))
  · rw [← ht] at hd
    rcases hd with hd | ⟨kind, hk, c, hc, ha, hd⟩ | ⟨kind, hk, c, hc, ha, v, hd⟩ | ⟨u, hu, hd⟩
    · by_cases hl1 : BijectivelyLinked (m1.topology rt1) sectionKinds
      swap
      · exact .inl (.inr (.inr (.inr (.inr (.inr (ht1.1 (.inl hl1)))))))
      refine .inr (.inr (.inr (.inr (.inr (.inr (ht2.1 (.inl fun hl2 => hd fun u hu => ?_)))))))
      rcases h.vertices u hu with ⟨v, hv, rfl⟩ | ⟨v, hv, rfl⟩
      · exact (linkedAt h.first hm rt rt1 s1.topology1 sectionKinds v hv).2 (hl1 v hv)
      · exact (linkedAt h.second hm rt rt2 s2.topology1 sectionKinds v hv).2 (hl2 v hv)
    · rcases component_parts h rt rt1 rt2 hc with hc | hc
      · exact .inl (.inr (.inr (.inr (.inr (.inr (ht1.1 (.inr (.inl ⟨kind, hk, c, hc, ha, hd⟩))))))))
      · exact .inr (.inr (.inr (.inr (.inr (.inr (ht2.1 (.inr (.inl ⟨kind, hk, c, hc, ha, hd⟩))))))))
    · have hu : m.uniqueVertex ⟨⟨kind, c.id⟩, v⟩ = none := hd.2
      rcases component_parts h rt rt1 rt2 hc with hc | hc
      · rw [h.first.uniqueVertex ⟨⟨kind, c.id⟩, v⟩ (hasId_component hc), Option.map_eq_none_iff] at hu
        exact .inl (.inr (.inr (.inr (.inr (.inr (ht1.1 (.inr (.inr (.inl ⟨kind, hk, c, hc, ha, v, hd.1, hu⟩)))))))))
      · rw [h.second.uniqueVertex ⟨⟨kind, c.id⟩, v⟩ (hasId_component hc), Option.map_eq_none_iff] at hu
        exact .inr (.inr (.inr (.inr (.inr (.inr (ht2.1 (.inr (.inr (.inl ⟨kind, hk, c, hc, ha, v, hd.1, hu⟩)))))))))
    · rcases h.vertices u hu with ⟨v, hv, rfl⟩ | ⟨v, hv, rfl⟩
      · exact .inl (.inr (.inr (.inr (.inr (.inr (ht1.1 (.inr (.inr (.inr ⟨v, hv,
          (vertexDefect (agree h.first hm rt rt1 s1.topology1 v hv s1.allMeshed)).1 hd⟩)))))))))
      · exact .inr (.inr (.inr (.inr (.inr (.inr (ht2.1 (.inr (.inr (.inr ⟨v, hv,
          (vertexDefect (agree h.second hm rt rt2 s2.topology1 v hv s2.allMeshed)).1 hd⟩)))))))))

/-- An active Surface without polygon is a defect. -/
theorem unmeshed_defect (hm : MeshesOk lib m) (rt : ModelRuntime) {x : FaceData P} (hx : x ∈ m.surfaces)
    (ha : x.active = true) (h0 : x.nbPolygons = 0) : PlainSectionDefect lib m := by
  refine .inr (.inr (.inr (.inr (.inr ?_))))
  rw [← Plain.topology_iff hm rt SectionTopologyDefect (fun _ _ _ _ _ _ _ hd => hd)]
  exact .inr (.inl ⟨.surface, by simp [sectionKinds], _, (mem_components _ _ _ _).2 ⟨x, hx, rfl⟩, ha,
    fun hmesh => hmesh.2 (by simp) h0⟩)

theorem allMeshed_of (rt : ModelRuntime) (h : ∀ s ∈ m.surfaces, s.nbPolygons ≠ 0) : AllMeshed (m.topology rt) .surface := by
  intro c hc
  rw [mem_components] at hc
  obtain ⟨x, hx, rfl⟩ := hc
  exact h x hx

end

end Inspector.Parts
