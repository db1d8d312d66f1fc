import Verif.Proofs.Ids
/-
Proofs for C131: what is assumed of a model holds of the same model with other uuids.
-/
namespace Inspector.Ids
open Inspector Spec
variable {P : Type} {lib : ModelLibrary P} {ρ : Equiv.Perm Uuid} {m : ModelData P}

theorem find_id {α : Type} (l : List α) (f : α → α) (key : α → Uuid) (h : ∀ x, key (f x) = ρ (key x)) (id : Uuid) :
    ((l.map f).find? fun x => key x == ρ id) = (l.find? fun x => key x == id).map f := by
  rw [List.find?_map]
  congr 2
  funext x
  simp only [Function.comp, h]
  rw [Bool.eq_iff_iff, beq_iff_eq, beq_iff_eq, ρ.injective.eq_iff]

theorem any_id {α : Type} (l : List α) (f : α → α) (key : α → Uuid) (b : α → Bool) (h : ∀ x, key (f x) = ρ (key x))
    (hb : ∀ x, b (f x) = b x) (id : Uuid) :
    ((l.map f).any fun x => key x == ρ id && b x) = l.any fun x => key x == id && b x := by
  rw [List.any_map]
  congr 1
  funext x
  simp only [Function.comp, h, hb]
  congr 1
  rw [Bool.eq_iff_iff, beq_iff_eq, beq_iff_eq, ρ.injective.eq_iff]

theorem isActive_eq (id : Uuid) : (withIds ρ m).isActive (ρ id) = m.isActive id := by
  unfold ModelData.isActive
  show (((m.corners.map (cornerOf ρ)).any fun c => c.id == ρ id && c.active) ||
    ((m.lines.map (lineOf ρ)).any fun c => c.id == ρ id && c.active) ||
    ((m.surfaces.map (faceOf ρ)).any fun c => c.id == ρ id && c.active) ||
    ((m.blocks.map (volumeOf ρ)).any fun c => c.id == ρ id && c.active)) = _
  rw [any_id m.corners (cornerOf ρ) CornerData.id CornerData.active (fun _ => rfl) (fun _ => rfl),
    any_id m.lines (lineOf ρ) LineData.id LineData.active (fun _ => rfl) (fun _ => rfl),
    any_id m.surfaces (faceOf ρ) FaceData.id FaceData.active (fun _ => rfl) (fun _ => rfl),
    any_id m.blocks (volumeOf ρ) VolumeData.id VolumeData.active (fun _ => rfl) (fun _ => rfl)]

theorem activeCmvs_eq (uv : Index) : activeCmvs ((withIds ρ m).uniqueVertices lib) uv =
    (activeCmvs (m.uniqueVertices lib) uv).map (cmvOf ρ) := by
  unfold activeCmvs
  show ((m.componentMeshVertices uv).map (cmvOf ρ)).filter (fun cmv => (withIds ρ m).isActive cmv.component_id.id) =
    ((m.componentMeshVertices uv).filter fun cmv => m.isActive cmv.component_id.id).map _
  rw [List.filter_map]
  congr 1
  refine List.filter_congr fun c _ => ?_
  exact isActive_eq _

theorem position_eq (c : ComponentMeshVertex) : position ((withIds ρ m).uniqueVertices lib) (cmvOf ρ c) =
    position (m.uniqueVertices lib) c := by
  obtain ⟨⟨kind, id⟩, v⟩ := c
  unfold position
  cases kind
  · show ModelData.pointOf lib (((m.corners.map (cornerOf ρ)).find? fun c => c.id == ρ id).map CornerData.points) v =
      ModelData.pointOf lib ((m.corners.find? fun c => c.id == id).map CornerData.points) v
    rw [find_id m.corners (cornerOf ρ) CornerData.id (fun _ => rfl), Option.map_map]
    rfl
  · show ModelData.pointOf lib (((m.lines.map (lineOf ρ)).find? fun c => c.id == ρ id).map fun c => c.points) v =
      ModelData.pointOf lib ((m.lines.find? fun c => c.id == id).map fun c => c.points) v
    rw [find_id m.lines (lineOf ρ) LineData.id (fun _ => rfl), Option.map_map]
    rfl
  · show ModelData.pointOf lib (((m.surfaces.map (faceOf ρ)).find? fun c => c.id == ρ id).map fun c => c.points) v =
      ModelData.pointOf lib ((m.surfaces.find? fun c => c.id == id).map fun c => c.points) v
    rw [find_id m.surfaces (faceOf ρ) FaceData.id (fun _ => rfl), Option.map_map]
    rfl
  · show ModelData.pointOf lib (((m.blocks.map (volumeOf ρ)).find? fun c => c.id == ρ id).map fun c => c.points) v =
      ModelData.pointOf lib ((m.blocks.find? fun c => c.id == id).map fun c => c.points) v
    rw [find_id m.blocks (volumeOf ρ) VolumeData.id (fun _ => rfl), Option.map_map]
    rfl
  · show ModelData.pointOf lib (((m.corners.map (cornerOf ρ)).find? fun c => c.id == ρ id).map CornerData.points) v =
      ModelData.pointOf lib ((m.corners.find? fun c => c.id == id).map CornerData.points) v
    rw [find_id m.corners (cornerOf ρ) CornerData.id (fun _ => rfl), Option.map_map]
    rfl

theorem activeUvs_eq : activeUvs ((withIds ρ m).uniqueVertices lib) = activeUvs (m.uniqueVertices lib) := by
  unfold activeUvs
  show (List.range m.nbUniqueVertices).filter _ = (List.range m.nbUniqueVertices).filter _
  refine List.filter_congr fun uv _ => ?_
  rw [activeCmvs_eq, List.isEmpty_map]

theorem activePositions_eq : activePositions ((withIds ρ m).uniqueVertices lib) = activePositions (m.uniqueVertices lib) := by
  unfold activePositions
  show (List.range m.nbUniqueVertices).filterMap _ = (List.range m.nbUniqueVertices).filterMap _
  refine List.filterMap_congr fun uv _ => ?_
  rw [activeCmvs_eq, List.head?_map, Option.map_map]
  congr 1
  funext c
  exact position_eq c

theorem meshesKnown (h : MeshesKnown lib m) : MeshesKnown lib (withIds ρ m) where
  ids := by
    have := h.ids.map ρ.injective
    simpa [withIds, Function.comp_def, cornerOf, lineOf, faceOf, volumeOf] using this
  nbComponents := by simpa [withIds] using h.nbComponents
  corners c hc := by
    obtain ⟨c, hc', rfl⟩ := List.mem_map.1 hc
    exact h.corners c hc'
  lines l hl := by
    obtain ⟨l, hl', rfl⟩ := List.mem_map.1 hl
    exact h.lines l hl'
  surfaces s hs := by
    obtain ⟨s, hs', rfl⟩ := List.mem_map.1 hs
    exact h.surfaces s hs'
  walks s hs := by
    obtain ⟨s, hs', rfl⟩ := List.mem_map.1 hs
    have := h.walks s hs'
    exact ⟨this.vertices, this.walks, this.nbVertices, this.nbEdges, this.uses⟩
  blocks b hb := by
    obtain ⟨b, hb', rfl⟩ := List.mem_map.1 hb
    exact h.blocks b hb'
  uniqueVertices := by
    rw [activeUvs_eq, activePositions_eq]
    exact h.uniqueVertices
  nbUniqueVertices := h.nbUniqueVertices
  nbLinks := by simpa [withIds] using h.nbLinks
  smallPolygons s hs := by
    obtain ⟨s, hs', rfl⟩ := List.mem_map.1 hs
    exact h.smallPolygons s hs'
  positions := h.positions

theorem blockWalksOk (h : BlockWalksOk m) : BlockWalksOk (withIds ρ m) := by
  intro b hb ha v hv
  obtain ⟨b, hb', rfl⟩ := List.mem_map.1 hb
  exact h b hb' ha v hv

theorem knownTypes {brep : Bool} (h : KnownTypes brep (m.uniqueVertices lib)) :
    KnownTypes brep ((withIds ρ m).uniqueVertices lib) := by
  intro uv c hc
  obtain ⟨c, hc', rfl⟩ := List.mem_map.1 hc
  exact h uv c hc'

/-! ### the trees -/

/-- The candidates of the trees, for the new uuids. -/
def candidatesOf (ρ : Equiv.Perm Uuid) (c : Candidates P) : Candidates P where
  self s := c.self (surfaceOf ρ.symm s)
  other s1 s2 := c.other (surfaceOf ρ.symm s1) (surfaceOf ρ.symm s2)
  line s l := c.line (surfaceOf ρ.symm s) { l with id := ρ.symm l.id }

/-- A Line as given to the tests of triangles, with another uuid. -/
def segmentsOf (ρ : Equiv.Perm Uuid) (l : ModelLine P) : ModelLine P := { l with id := ρ l.id }

theorem surface_surface (s : ModelSurface P) : surfaceOf ρ.symm (surfaceOf ρ s) = s := by
  unfold surfaceOf; simp

theorem segments_segments (l : ModelLine P) : segmentsOf ρ.symm (segmentsOf ρ l) = l := by
  unfold segmentsOf; simp

theorem modelSurface_eq (s : FaceData P) : (withIds ρ m).modelSurface lib (faceOf ρ s) = surfaceOf ρ (m.modelSurface lib s) := by
  unfold ModelData.modelSurface surfaceOf
  congr 1
  funext v
  show ((withIds ρ m).uniqueVertex ⟨⟨.surface, ρ s.id⟩, v⟩).getD m.noId = _
  rw [uniqueVertex_eq]
  rfl

theorem nbEmbeddingsOf_eq (kind : ComponentType) (id : Uuid) :
    (withIds ρ m).nbEmbeddingsOf kind (ρ id) = m.nbEmbeddingsOf kind id := by
  unfold ModelData.nbEmbeddingsOf
  show (((m.embeddings (ρ.symm (ρ id))).map (idOf ρ)).filter fun c => c.type == kind).length = _
  rw [Equiv.symm_apply_apply, List.filter_map, List.length_map]
  rfl

theorem modelLine_eq (l : LineData P) : (withIds ρ m).modelLine lib (lineOf ρ l) = segmentsOf ρ (m.modelLine lib l) := by
  unfold ModelData.modelLine segmentsOf
  simp only [lineOf, nbEmbeddingsOf_eq]

theorem surfaces_eq (brep : Bool) : ((withIds ρ m).intersections lib brep).surfaces =
    (m.intersections lib brep).surfaces.map (surfaceOf ρ) := by
  show (m.surfaces.map (faceOf ρ)).map _ = (m.surfaces.map _).map _
  rw [List.map_map, List.map_map]
  exact List.map_congr_left fun s _ => modelSurface_eq s

theorem lines_eq (brep : Bool) : ((withIds ρ m).intersections lib brep).lines =
    (m.intersections lib brep).lines.map (segmentsOf ρ) := by
  show (m.lines.map (lineOf ρ)).map _ = (m.lines.map _).map _
  rw [List.map_map, List.map_map]
  exact List.map_congr_left fun s _ => modelLine_eq s

theorem overlapping_eq (brep : Bool) : ((withIds ρ m).intersections lib brep).overlappingSurfaces =
    (m.intersections lib brep).overlappingSurfaces.map fun x => (surfaceOf ρ x.1, surfaceOf ρ x.2) := by
  show (m.overlappingSurfaces.map _).map _ = (m.overlappingSurfaces.map _).map _
  rw [List.map_map, List.map_map]
  exact List.map_congr_left fun s _ => by simp only [Function.comp, modelSurface_eq]

/-- A comparison, for the new uuids. -/
def comparisonOf (ρ : Equiv.Perm Uuid) (x : (ModelSurface P × ModelSurface P) × List ElementPair) :
    (ModelSurface P × ModelSurface P) × List ElementPair := ((surfaceOf ρ x.1.1, surfaceOf ρ x.1.2), x.2)

theorem comparisons_eq (brep : Bool) (c : Candidates P) :
    comparisons ((withIds ρ m).intersections lib brep) (candidatesOf ρ c) =
      (comparisons (m.intersections lib brep) c).map (comparisonOf ρ) := by
  unfold comparisons
  rw [surfaces_eq, overlapping_eq, List.map_append, List.filter_map, List.map_map, List.map_map, List.map_map, List.map_map]
  congr 1
  · refine List.map_congr_left fun s _ => ?_
    simp only [Function.comp, comparisonOf, candidatesOf, surface_surface]
  · refine List.map_congr_left fun s _ => ?_
    simp only [Function.comp, comparisonOf, candidatesOf, surface_surface]

theorem triangleTest_eq (brep : Bool) (s1 s2 : ModelSurface P) (t1 t2 : List Index) :
    triangleTest ((withIds ρ m).intersections lib brep) (surfaceOf ρ s1) (surfaceOf ρ s2) t1 t2 =
      triangleTest (m.intersections lib brep) s1 s2 t1 t2 := by
  cases brep <;> rfl

theorem polygonsMeet_eq (brep : Bool) (s1 s2 : ModelSurface P) (p : ElementPair) :
    PolygonsMeet ((withIds ρ m).intersections lib brep) (surfaceOf ρ s1) (surfaceOf ρ s2) p ↔
      PolygonsMeet (m.intersections lib brep) s1 s2 p := by
  unfold PolygonsMeet
  simp only [triangleTest_eq]
  show ¬ (ρ _ = ρ _ ∧ _) ∧ _ ↔ _
  rw [ρ.injective.eq_iff]
  exact Iff.rfl

theorem edgeMeets_eq (brep : Bool) (s : ModelSurface P) (l : ModelLine P) (p : ElementPair) :
    EdgeMeetsPolygon ((withIds ρ m).intersections lib brep) (surfaceOf ρ s) (segmentsOf ρ l) p ↔
      EdgeMeetsPolygon (m.intersections lib brep) s l p := Iff.rfl

theorem segments_surjective (ρ : Equiv.Perm Uuid) (l : ModelLine P) : ∃ l0, segmentsOf ρ l0 = l :=
  ⟨segmentsOf ρ.symm l, by unfold segmentsOf; simp⟩

theorem surface_injective (ρ : Equiv.Perm Uuid) : Function.Injective (surfaceOf (P := P) ρ) :=
  Function.LeftInverse.injective surface_surface

theorem segments_injective (ρ : Equiv.Perm Uuid) : Function.Injective (segmentsOf (P := P) ρ) :=
  Function.LeftInverse.injective segments_segments

theorem trees_ok {brep : Bool} {c : Candidates P} (h : ModelTreesOk (m.intersections lib brep) c) :
    ModelTreesOk ((withIds ρ m).intersections lib brep) (candidatesOf ρ c) where
  trees := ⟨fun s => h.trees.self (surfaceOf ρ.symm s), fun s1 s2 => h.trees.other (surfaceOf ρ.symm s1) (surfaceOf ρ.symm s2),
    fun s l => h.trees.line (surfaceOf ρ.symm s) (segmentsOf ρ.symm l)⟩
  surfaces x hx := by
    rw [comparisons_eq] at hx
    obtain ⟨x, hx', rfl⟩ := List.mem_map.1 hx
    obtain ⟨h1, h2, h3, h4, h5⟩ := h.surfaces x hx'
    rw [surfaces_eq]
    exact ⟨List.mem_map_of_mem h1, h2, List.mem_map_of_mem h3, h4, h5⟩
  complete s1 s2 p q hx := by
    obtain ⟨s1, rfl⟩ := surface_surjective ρ s1
    obtain ⟨s2, rfl⟩ := surface_surjective ρ s2
    obtain ⟨h1, h2, h3, h4, h5, h6, h7⟩ := hx
    rw [surfaces_eq] at h1 h3
    rw [List.mem_map_of_injective (surface_injective ρ)] at h1 h3
    obtain ⟨x, hx, ho⟩ := h.complete s1 s2 p q ⟨h1, h2, h3, h4, h5, h6, (polygonsMeet_eq _ _ _ _).1 h7⟩
    refine ⟨comparisonOf ρ x, by rw [comparisons_eq]; exact List.mem_map_of_mem hx, ?_⟩
    rcases ho with ⟨e, hp⟩ | ⟨e, hp, hm⟩
    · refine Or.inl ⟨?_, hp⟩
      show (surfaceOf ρ x.1.1, surfaceOf ρ x.1.2) = _
      rw [e]
    · refine Or.inr ⟨?_, hp, (polygonsMeet_eq _ _ _ _).2 hm⟩
      show (surfaceOf ρ x.1.1, surfaceOf ρ x.1.2) = _
      rw [e]
  lines s l p hp := h.lines (surfaceOf ρ.symm s) (segmentsOf ρ.symm l) p hp
  linesComplete s l p e hx := by
    obtain ⟨s, rfl⟩ := surface_surjective ρ s
    obtain ⟨l, rfl⟩ := segments_surjective ρ l
    obtain ⟨h1, h2, h3, h4, h5⟩ := hx
    rw [surfaces_eq, List.mem_map_of_injective (surface_injective ρ)] at h1
    rw [lines_eq, List.mem_map_of_injective (segments_injective ρ)] at h3
    have := h.linesComplete s l p e ⟨h1, h2, h3, h4, h5⟩
    show (p, e) ∈ c.line (surfaceOf ρ.symm (surfaceOf ρ s)) (segmentsOf ρ.symm (segmentsOf ρ l))
    rwa [surface_surface, segments_segments]
  length := by
    have h1 : (meetingPolygons ((withIds ρ m).intersections lib brep) (candidatesOf ρ c)).length =
        (meetingPolygons (m.intersections lib brep) c).length := by
      unfold meetingPolygons
      rw [comparisons_eq, List.length_flatMap, List.length_flatMap, List.map_map]
      congr 1
      refine List.map_congr_left fun x _ => ?_
      simp only [Function.comp, List.length_map, comparisonOf, polygonsMeet_eq]
    have h2 : (meetingEdges ((withIds ρ m).intersections lib brep) (candidatesOf ρ c)).length =
        (meetingEdges (m.intersections lib brep) c).length := by
      unfold meetingEdges
      rw [surfaces_eq, lines_eq, List.filter_map, List.filter_map, List.length_flatMap, List.length_flatMap, List.map_map]
      congr 1
      refine List.map_congr_left fun x _ => ?_
      simp only [Function.comp]
      rw [List.length_flatMap, List.length_flatMap, List.map_map]
      congr 1
      refine List.map_congr_left fun l _ => ?_
      simp only [Function.comp, List.length_map, edgeMeets_eq]
      show (List.filter _ (c.line (surfaceOf ρ.symm (surfaceOf ρ x)) (segmentsOf ρ.symm (segmentsOf ρ l)))).length = _
      rw [surface_surface, segments_segments]
    rw [List.length_append, h1, h2, ← List.length_append]
    exact h.length

theorem tests_ok {brep : Bool} {c : Candidates P} (h : TestsOk (m.intersections lib brep) c) :
    TestsOk ((withIds ρ m).intersections lib brep) (candidatesOf ρ c) := by
  intro x hx p hp f hr
  rw [comparisons_eq] at hx
  obtain ⟨x, hx', rfl⟩ := List.mem_map.1 hx
  refine h x hx' p hp f ?_
  obtain ⟨h1, before, t, after, h2, h3, h4⟩ := hr
  refine ⟨fun e => h1 ⟨congrArg ρ e.1, e.2⟩, before, t, after, h2, fun u hu => ?_, ?_⟩
  · exact (triangleTest_eq _ _ _ _ _).symm.trans (h3 u hu)
  · exact (triangleTest_eq _ _ _ _ _).symm.trans h4

/-! ### the topology -/

theorem wellFormed {t t' : TopologyModel} (s : Renamed ρ t t') (h : WellFormed t) : WellFormed t' := by
  have all_has : ∀ l : List ComponentID, (∀ c ∈ l, Has t c.type c.id) → ∀ c ∈ l.map (idOf ρ), Has t' c.type c.id := by
    intro l hl c hc
    obtain ⟨c, hc', rfl⟩ := List.mem_map.1 hc
    exact (has s _ _).2 (hl c hc')
  refine ⟨?_, ?_, ?_, ?_, ?_⟩
  · intro kind
    rw [s.components, List.map_map]
    have := (h.ids kind).map ρ.injective
    rwa [List.map_map] at this
  · intro v hv c hc
    rw [s.nbUniqueVertices] at hv
    rw [s.cmvs] at hc
    obtain ⟨c, hc', rfl⟩ := List.mem_map.1 hc
    exact (has s _ _).2 (h.vertices v hv c hc')
  · intro id
    obtain ⟨id, rfl⟩ := ρ.surjective id
    rw [s.embeddings]
    exact all_has _ (h.embeddings id)
  · intro id
    obtain ⟨id, rfl⟩ := ρ.surjective id
    rw [s.incidences]
    exact all_has _ (h.incidences id)
  · intro id
    obtain ⟨id, rfl⟩ := ρ.surjective id
    rw [s.boundaries]
    exact all_has _ (h.boundaries id)

theorem lineEdgeVertices_eq (rt rt' : ModelRuntime) (id : Uuid) (e : Index) :
    ((withIds ρ m).topology rt').lineEdgeVertices (ρ id) e = (m.topology rt).lineEdgeVertices id e := by
  show (((m.lines.map (lineOf ρ)).find? fun l => l.id == ρ id).map fun l =>
    [(l.edgeVertices e).1, (l.edgeVertices e).2]).getD [] = ((m.lines.find? fun l => l.id == id).map fun l =>
    [(l.edgeVertices e).1, (l.edgeVertices e).2]).getD []
  rw [find_id m.lines (lineOf ρ) LineData.id (fun _ => rfl), Option.map_map]
  rfl

theorem around (rt rt' : ModelRuntime) (ho : ∀ map, (rt'.aroundOrder map).Perm map) (h : AroundWellFormed (m.topology rt)) :
    AroundWellFormed ((withIds ρ m).topology rt') := by
  have s : Renamed ρ (m.topology rt) ((withIds ρ m).topology rt') := renamed rt rt'
  refine ⟨ho, ?_, ?_, ?_, ?_, ?_, ?_, ?_⟩
  · intro line e x n hx
    obtain ⟨line, rfl⟩ := ρ.surjective line
    obtain ⟨x, rfl⟩ := ρ.surjective x
    rw [s.surfaceEdges, mem_keys] at hx
    exact (has s _ _).2 (h.surfaces _ _ _ _ hx)
  · intro line e
    obtain ⟨line, rfl⟩ := ρ.surjective line
    rw [s.surfaceEdges]
    have := (h.surfaceKeys line e).map ρ.injective
    rw [List.map_map] at this
    unfold keysOf
    rwa [List.map_map]
  · intro line e x n hx
    obtain ⟨line, rfl⟩ := ρ.surjective line
    obtain ⟨x, rfl⟩ := ρ.surjective x
    rw [s.blockEdges, mem_keys] at hx
    exact (has s _ _).2 (h.blocks _ _ _ _ hx)
  · intro line e
    obtain ⟨line, rfl⟩ := ρ.surjective line
    rw [s.blockEdges]
    have := (h.blockKeys line e).map ρ.injective
    rw [List.map_map] at this
    unfold keysOf
    rwa [List.map_map]
  · intro line e x n hx
    obtain ⟨line, rfl⟩ := ρ.surjective line
    obtain ⟨x, rfl⟩ := ρ.surjective x
    rw [s.blockPolygons, mem_keys] at hx
    exact (has s _ _).2 (h.polygons _ _ _ _ hx)
  · rw [all_component s]
    intro c hc e he v hv
    rw [show (componentOf ρ c).id = ρ c.id from rfl, lineEdgeVertices_eq rt] at hv
    exact h.edgeVertices c hc e he v hv
  · rw [all_component s]
    intro c hc e he v hv
    rw [show (componentOf ρ c).id = ρ c.id from rfl, s.polygonVertices] at hv
    exact h.facetVertices c hc e he v hv

theorem coherent {t t' : TopologyModel} (s : Renamed ρ t t') (h : CoherentLines t) : CoherentLines t' := by
  intro line x
  obtain ⟨line, rfl⟩ := ρ.surjective line
  obtain ⟨x, rfl⟩ := ρ.surjective x
  rw [mem_incidences s, mem_boundaries s]
  exact h line x

theorem sectionOk {rt : ModelRuntime} {c : Candidates P} (rt' : ModelRuntime) (h : SectionOk lib rt m c) :
    SectionOk lib rt' (withIds ρ m) (candidatesOf ρ c) where
  meshes := ⟨meshesKnown h.meshes.toMeshesKnown, blockWalksOk h.meshes.blockWalks⟩
  noBlock := by
    show m.blocks.map _ = []
    rw [h.noBlock]; rfl
  types := knownTypes h.types
  trees := trees_ok h.trees
  tests hn := tests_ok (h.tests fun s hs ha => hn (surfaceOf ρ s) (by rw [surfaces_eq]; exact List.mem_map_of_mem hs) ha)
  topology := wellFormed (renamed rt rt') h.topology
  embeddings id ha e he := by
    obtain ⟨id, rfl⟩ := ρ.surjective id
    rw [active (renamed rt rt')] at ha
    have he : e ∈ (m.embeddings (ρ.symm (ρ id))).map (idOf ρ) := he
    rw [Equiv.symm_apply_apply] at he
    obtain ⟨e, he', rfl⟩ := List.mem_map.1 he
    exact h.embeddings id ha e he'

theorem brepOk {rt : ModelRuntime} {c : Candidates P} (rt' : ModelRuntime) (ho : ∀ map, (rt'.aroundOrder map).Perm map)
    (h : BRepOk lib rt m c) : BRepOk lib rt' (withIds ρ m) (candidatesOf ρ c) where
  meshesKnown := meshesKnown h.meshes.toMeshesKnown
  blockWalks := blockWalksOk h.blockWalks
  types := knownTypes h.types
  trees := trees_ok h.trees
  nbModelEdges := by
    have := h.nbModelEdges
    have e1 : (withIds ρ m).lines.length = m.lines.length := List.length_map ..
    have e2 : ((activeSurfaces ((withIds ρ m).manifold lib)).map fun s => (polygonEdges s.mesh.toSurfaceMesh).length) =
        (activeSurfaces (m.manifold lib)).map fun s => (polygonEdges s.mesh.toSurfaceMesh).length := by
      unfold activeSurfaces
      show (((m.surfaces.map (faceOf ρ)).map ((withIds ρ m).manifoldSurface lib)).filter _).map _ =
        ((m.surfaces.map (m.manifoldSurface lib)).filter _).map _
      rw [List.map_map, List.filter_map, List.filter_map, List.map_map, List.map_map]
      rfl
    rw [e1, e2]
    exact this
  topology := wellFormed (renamed rt rt') h.topology
  around := around rt rt' ho h.around
  coherent := coherent (renamed rt rt') h.coherent
  surfaceEmbeddings id ha e he := by
    obtain ⟨id, rfl⟩ := ρ.surjective id
    rw [active (renamed rt rt')] at ha
    have he : e ∈ (m.embeddings (ρ.symm (ρ id))).map (idOf ρ) := he
    rw [Equiv.symm_apply_apply] at he
    obtain ⟨e, he', rfl⟩ := List.mem_map.1 he
    exact h.surfaceEmbeddings id ha e he'
  firstEdges l hl ha hn x hx := by
    obtain ⟨l, hl', rfl⟩ := List.mem_map.1 hl
    show (withIds ρ m).uniqueVertex ⟨⟨.line, ρ l.id⟩, x⟩ ≠ none
    rw [uniqueVertex_eq]
    exact h.firstEdges l hl' ha hn x hx
  counts v hv b hb := by
    obtain ⟨b, rfl⟩ := ρ.surjective b
    rw [at_ (renamed rt rt')] at hb
    have := h.counts v hv b hb
    refine ⟨?_, ?_⟩
    · rw [(renamed (ρ := ρ) (m := m) rt rt').cmvs, List.length_map]
      exact this.1
    · have h5 : nbLinePassages ((withIds ρ m).topology rt') v (ρ b) = nbLinePassages (m.topology rt) v b := by
        unfold nbLinePassages
        rw [linesAt_eq (renamed rt rt'), List.map_map]
        simp only [Function.comp_def, sheets (renamed (ρ := ρ) (m := m) rt rt')]
      rw [h5]
      exact this.2
  graph edges a b i he := by
    obtain ⟨e, h1, h2⟩ := h.graph _ _ _ _ he
    rw [List.getElem?_map, Option.map_eq_some_iff] at h1
    obtain ⟨e', h1, rfl⟩ := h1
    refine ⟨e', h1, ?_⟩
    simpa only [ρ.symm.injective.eq_iff] using h2
  geometry mesh s v f hf := h.geometry _ _ _ _ hf
  rays x hx hc := by
    obtain ⟨x, rfl⟩ := ρ.surjective x
    rw [cannotBound (renamed rt rt')] at hx
    rw [ex_component (renamed rt rt')] at hc
    have hr := h.rays x hx (by simpa only [componentOf, ρ.injective.eq_iff] using hc)
    rw [all_component (renamed rt rt')]
    intro b hb
    obtain ⟨i, hi⟩ := hr b hb
    refine ⟨i, ?_⟩
    show m.blocksOracle.isInsideBlock (ρ.symm (ρ x)) (ρ.symm (ρ b.id)) = _
    rw [Equiv.symm_apply_apply, Equiv.symm_apply_apply, hi]
  modelBoundaries := by
    rcases h.modelBoundaries with h1 | h1
    · left
      show m.blocksOracle.modelBoundaries.map _ = []
      rw [h1]; rfl
    · right
      show (m.blocksOracle.modelBoundaries.map (List.map ρ)).flatten ≠ []
      rw [← List.map_flatten, ne_eq, List.map_eq_nil_iff]
      exact h1

end Inspector.Ids
