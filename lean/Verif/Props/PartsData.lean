import Verif.Spec.Parts
import Verif.Props.Numbers
import Verif.Proofs.Moved
/-
Concrete models made of two parts, for the examples and counterexamples of C129.
-/
namespace Inspector.Parts
open Inspector Spec

/-- Two finite descriptions put together. -/
def beside (a b : TopologyData) : TopologyData where
  corners := a.corners ++ b.corners
  lines := a.lines ++ b.lines
  surfaces := a.surfaces ++ b.surfaces
  blocks := a.blocks ++ b.blocks
  vertices := a.vertices ++ b.vertices
  boundary := a.boundary ++ b.boundary
  internal := a.internal ++ b.internal
  surfaceEdges := a.surfaceEdges ++ b.surfaceEdges
  blockEdges := a.blockEdges ++ b.blockEdges
  blockPolygons := a.blockPolygons ++ b.blockPolygons
  polygons := a.polygons ++ b.polygons
  border := a.border ++ b.border

/-- The same description with other ids. -/
def otherIds (k : Nat) (d : TopologyData) : TopologyData where
  corners := d.corners.map fun c => { c with id := c.id + k }
  lines := d.lines.map fun c => { c with id := c.id + k }
  surfaces := d.surfaces.map fun c => { c with id := c.id + k }
  blocks := d.blocks.map fun c => { c with id := c.id + k }
  vertices := d.vertices.map fun l => l.map fun c => ⟨⟨c.component_id.type, c.component_id.id + k⟩, c.vertex⟩
  boundary := d.boundary.map fun e => (⟨e.1.type, e.1.id + k⟩, ⟨e.2.type, e.2.id + k⟩)
  internal := d.internal.map fun e => (⟨e.1.type, e.1.id + k⟩, ⟨e.2.type, e.2.id + k⟩)
  surfaceEdges := d.surfaceEdges.map fun e => ((e.1.1 + k, e.1.2), (e.2.1 + k, e.2.2))
  blockEdges := d.blockEdges.map fun e => ((e.1.1 + k, e.1.2), (e.2.1 + k, e.2.2))
  blockPolygons := d.blockPolygons.map fun e => ((e.1.1 + k, e.1.2), (e.2.1 + k, e.2.2))
  polygons := d.polygons.map fun e => ((e.1.1 + k, e.1.2), e.2)
  border := d.border.map fun e => (e.1 + k, e.2)

/-- The ids of the components of a description. -/
def idsOf (d : TopologyData) : List Uuid := (d.corners ++ d.lines ++ d.surfaces ++ d.blocks).map TopologyComponent.id

/-- The ids a description refers to. -/
def usedIds (d : TopologyData) : List Uuid :=
  idsOf d ++ d.vertices.flatten.map (fun c => c.component_id.id) ++ d.boundary.map (fun e => e.1.id) ++
    d.boundary.map (fun e => e.2.id) ++ d.internal.map (fun e => e.1.id) ++ d.internal.map (fun e => e.2.id) ++
    d.surfaceEdges.map (fun e => e.1.1) ++ d.blockEdges.map (fun e => e.1.1) ++ d.blockPolygons.map (fun e => e.1.1) ++
    d.border.map Prod.fst

/-- `b` does not refer to components of `a`. -/
def Ignores (a b : TopologyData) : Prop := ∀ x ∈ idsOf a, ∀ y ∈ usedIds b, x ≠ y

instance (a b : TopologyData) : Decidable (Ignores a b) := by unfold Ignores; infer_instance

/-- All vertices of the components have unique vertices. -/
def AllLinkedData (d : TopologyData) : Prop :=
  ∀ kind ∈ [ComponentType.corner, .line, .surface, .block], ∀ c ∈ d.components kind, ∀ v < c.nbVertices,
    d.toModel.uniqueVertex ⟨⟨kind, c.id⟩, v⟩ ≠ none

instance (d : TopologyData) : Decidable (AllLinkedData d) := by unfold AllLinkedData; infer_instance

section
variable {a b : TopologyData}

theorem select_append {K V : Type} [DecidableEq K] (l l' : List (K × V)) (k : K) :
    TopologyData.select (l ++ l') k = TopologyData.select l k ++ TopologyData.select l' k := by
  unfold TopologyData.select
  rw [List.filterMap_append]

theorem select_nil {K V : Type} [DecidableEq K] {l : List (K × V)} {k : K} (h : ∀ e ∈ l, e.1 ≠ k) :
    TopologyData.select l k = [] := by
  rw [List.eq_nil_iff_forall_not_mem]
  exact fun x hx => h _ (TopologyData.mem_select.1 hx) rfl

theorem any_none {α : Type} {l : List α} {p : α → Bool} (h : ∀ e ∈ l, p e = false) : l.any p = false := by
  rw [Bool.eq_false_iff, ne_eq, List.any_eq_true]
  rintro ⟨x, hx, e⟩
  rw [h x hx] at e
  exact absurd e (by decide)

theorem used (h : Ignores a b) {id : Uuid} (hid : id ∈ idsOf a) {y : Uuid} (hy : y ∈ usedIds b) : y ≠ id :=
  fun e => h id hid y hy e.symm

theorem used_vertices {d : TopologyData} {l : List ComponentMeshVertex} (hl : l ∈ d.vertices) {c : ComponentMeshVertex}
    (hc : c ∈ l) : c.component_id.id ∈ usedIds d := by
  unfold usedIds
  simp only [List.mem_append, List.mem_map]
  exact .inl (.inl (.inl (.inl (.inl (.inl (.inl (.inl (.inr ⟨c, List.mem_flatten.2 ⟨l, hl, hc⟩, rfl⟩))))))))

theorem used_boundary {d : TopologyData} {e : ComponentID × ComponentID} (he : e ∈ d.boundary) :
    e.1.id ∈ usedIds d ∧ e.2.id ∈ usedIds d := by
  unfold usedIds
  simp only [List.mem_append, List.mem_map]
  exact ⟨.inl (.inl (.inl (.inl (.inl (.inl (.inl (.inr ⟨e, he, rfl⟩))))))), .inl (.inl (.inl (.inl (.inl (.inl (.inr ⟨e, he, rfl⟩))))))⟩

theorem used_internal {d : TopologyData} {e : ComponentID × ComponentID} (he : e ∈ d.internal) :
    e.1.id ∈ usedIds d ∧ e.2.id ∈ usedIds d := by
  unfold usedIds
  simp only [List.mem_append, List.mem_map]
  exact ⟨.inl (.inl (.inl (.inl (.inl (.inr ⟨e, he, rfl⟩))))), .inl (.inl (.inl (.inl (.inr ⟨e, he, rfl⟩))))⟩

theorem used_surfaceEdges {d : TopologyData} {e : (Uuid × Index) × (Uuid × Nat)} (he : e ∈ d.surfaceEdges) :
    e.1.1 ∈ usedIds d := by
  unfold usedIds
  simp only [List.mem_append, List.mem_map]
  exact .inl (.inl (.inl (.inr ⟨e, he, rfl⟩)))

theorem used_blockEdges {d : TopologyData} {e : (Uuid × Index) × (Uuid × Nat)} (he : e ∈ d.blockEdges) :
    e.1.1 ∈ usedIds d := by
  unfold usedIds
  simp only [List.mem_append, List.mem_map]
  exact .inl (.inl (.inr ⟨e, he, rfl⟩))

theorem used_blockPolygons {d : TopologyData} {e : (Uuid × Index) × (Uuid × Nat)} (he : e ∈ d.blockPolygons) :
    e.1.1 ∈ usedIds d := by
  unfold usedIds
  simp only [List.mem_append, List.mem_map]
  exact .inl (.inr ⟨e, he, rfl⟩)

theorem used_border {d : TopologyData} {e : Uuid × Index} (he : e ∈ d.border) : e.1 ∈ usedIds d := by
  unfold usedIds
  simp only [List.mem_append, List.mem_map]
  exact .inr ⟨e, he, rfl⟩

/-! ### what is asked about components of the first part -/

section
variable (h : Ignores a b) {id : Uuid} (hid : id ∈ idsOf a)
include h hid

theorem none_of_other (kind : ComponentType) (v : Index) : b.toModel.uniqueVertex ⟨⟨kind, id⟩, v⟩ = none := by
  show b.vertices.findIdx? _ = none
  rw [List.findIdx?_eq_none_iff]
  intro l hl
  rw [decide_eq_false_iff_not]
  exact fun hc => used h hid (used_vertices hl hc) rfl

theorem uniqueVertex_first (kind : ComponentType) (v : Index) :
    (beside a b).toModel.uniqueVertex ⟨⟨kind, id⟩, v⟩ = a.toModel.uniqueVertex ⟨⟨kind, id⟩, v⟩ := by
  have hb := none_of_other h hid kind v
  show (a.vertices ++ b.vertices).findIdx? _ = a.vertices.findIdx? _
  rw [List.findIdx?_append, show b.vertices.findIdx? _ = none from hb]
  simp

theorem uniqueVertex_second (kind : ComponentType) (v : Index) :
    (beside b a).toModel.uniqueVertex ⟨⟨kind, id⟩, v⟩ =
      (a.toModel.uniqueVertex ⟨⟨kind, id⟩, v⟩).map (· + b.vertices.length) := by
  have hb := none_of_other h hid kind v
  show (b.vertices ++ a.vertices).findIdx? _ = (a.vertices.findIdx? _).map _
  rw [List.findIdx?_append, show b.vertices.findIdx? _ = none from hb]
  simp

theorem relations : b.toModel.embeddings id = [] ∧ b.toModel.incidences id = [] ∧ b.toModel.boundaries id = [] := by
  refine ⟨select_nil ?_, select_nil ?_, select_nil ?_⟩ <;> intro e he <;> obtain ⟨x, hx, rfl⟩ := List.mem_map.1 he
  · exact used h hid (used_internal hx).1
  · exact used h hid (used_boundary hx).1
  · exact used h hid (used_boundary hx).2

theorem related (id' : Uuid) : b.toModel.isBoundary id id' = false ∧ b.toModel.isInternal id id' = false := by
  refine ⟨any_none fun e he => ?_, any_none fun e he => ?_⟩ <;> rw [Bool.and_eq_false_iff] <;> left <;>
    rw [beq_eq_false_iff_ne]
  · exact used h hid (used_boundary he).1
  · exact used h hid (used_internal he).1

theorem around (e : Index) : b.toModel.surfaceEdges id e = [] ∧ b.toModel.blockEdges id e = [] ∧
    b.toModel.blockPolygons id e = [] := by
  refine ⟨select_nil ?_, select_nil ?_, select_nil ?_⟩ <;> intro x hx e'
  · exact used h hid (used_surfaceEdges hx) (by rw [e'])
  · exact used h hid (used_blockEdges hx) (by rw [e'])
  · exact used h hid (used_blockPolygons hx) (by rw [e'])

theorem notBorder (v : Index) : (id, v) ∉ b.border := fun hc => used h hid (used_border hc) rfl

end

end

theorem mem_idsOf {d : TopologyData} {kind : ComponentType} {c : TopologyComponent} (hc : c ∈ d.components kind) :
    c.id ∈ idsOf d := by
  unfold idsOf
  refine List.mem_map_of_mem ?_
  simp only [List.mem_append]
  cases kind with
  | corner => exact .inl (.inl (.inl hc))
  | line => exact .inl (.inl (.inr hc))
  | surface => exact .inl (.inr hc)
  | block => exact .inr hc
  | other => exact absurd hc List.not_mem_nil

theorem hasId_example {d : TopologyData} {scale : Nat → Nat} {sign : Sign} {id : Uuid}
    (h : HasId (exampleModel d scale sign) id) : id ∈ idsOf d := by
  rcases h with ⟨c, hc, rfl⟩ | ⟨c, hc, rfl⟩ | ⟨c, hc, rfl⟩ | ⟨c, hc, rfl⟩
  all_goals
    obtain ⟨x, hx, rfl⟩ := List.mem_map.1 hc
  · exact mem_idsOf (kind := .corner) hx
  · exact mem_idsOf (kind := .line) hx
  · exact mem_idsOf (kind := .surface) hx
  · exact mem_idsOf (kind := .block) hx

theorem hasId_iff {d : TopologyData} {scale : Nat → Nat} {sign : Sign} {id : Uuid} :
    HasId (exampleModel d scale sign) id ↔ id ∈ idsOf d := by
  refine ⟨hasId_example, fun h => ?_⟩
  unfold idsOf at h
  obtain ⟨c, hc, rfl⟩ := List.mem_map.1 h
  simp only [List.mem_append] at hc
  rcases hc with ((hc | hc) | hc) | hc
  · exact .inl ⟨_, List.mem_map_of_mem hc, rfl⟩
  · exact .inr (.inl ⟨_, List.mem_map_of_mem hc, rfl⟩)
  · exact .inr (.inr (.inl ⟨_, List.mem_map_of_mem hc, rfl⟩))
  · exact .inr (.inr (.inr ⟨_, List.mem_map_of_mem hc, rfl⟩))

/-- A unique vertex found is below their number. -/
theorem number_lt {d : TopologyData} {cmv : ComponentMeshVertex} {u : Index} (h : d.toModel.uniqueVertex cmv = some u) :
    u < d.vertices.length := by
  obtain ⟨hlt, _⟩ := List.findIdx?_eq_some_iff_getElem.1 h
  exact hlt

section
variable {a b : TopologyData} (scale : Nat → Nat) (sign : Sign)

theorem points_first (h : Ignores a b) {kind : ComponentType} {c : TopologyComponent} (hid : c.id ∈ idsOf a) :
    exampleModel.points (beside a b) scale kind c = exampleModel.points a scale kind c := by
  unfold exampleModel.points exampleModel.vertices
  simp only [uniqueVertex_first h hid]

theorem points_second (h : Ignores a b) {kind : ComponentType} {c : TopologyComponent} (hid : c.id ∈ idsOf a)
    (hl : ∀ v < c.nbVertices, a.toModel.uniqueVertex ⟨⟨kind, c.id⟩, v⟩ ≠ none) :
    exampleModel.points (beside b a) scale kind c = exampleModel.points a (fun n => scale (n + b.vertices.length)) kind c := by
  unfold exampleModel.points exampleModel.vertices
  rw [List.map_map, List.map_map]
  refine List.map_congr_left fun v hv => ?_
  simp only [Function.comp, uniqueVertex_second h hid]
  have := hl v (List.mem_range.1 hv)
  cases e : a.toModel.uniqueVertex ⟨⟨kind, c.id⟩, v⟩ with
  | none => exact absurd e this
  | some u => rfl

theorem edges_nil (d : TopologyData) (u v : Index) : (exampleModel d scale sign).lineComponentMeshEdges u v = [] ↔
    ∀ c ∈ d.lines, ∀ e < c.nbElements,
      ¬ ((d.toModel.uniqueVertex ⟨⟨.line, c.id⟩, e⟩ = some u ∧ d.toModel.uniqueVertex ⟨⟨.line, c.id⟩, e + 1⟩ = some v) ∨
        (d.toModel.uniqueVertex ⟨⟨.line, c.id⟩, e⟩ = some v ∧ d.toModel.uniqueVertex ⟨⟨.line, c.id⟩, e + 1⟩ = some u)) := by
  show (d.lines.flatMap _) = [] ↔ _
  rw [List.flatMap_eq_nil_iff]
  refine forall_congr' fun c => forall_congr' fun _ => ?_
  rw [List.filterMap_eq_nil_iff]
  refine forall_congr' fun e => ?_
  rw [List.mem_range]
  refine forall_congr' fun _ => ?_
  simp

theorem polygons_nil (d : TopologyData) (uvs : List Index) :
    (exampleModel d scale sign).surfaceComponentMeshPolygons uvs = [] ↔ ∀ c ∈ d.surfaces, ∀ p < c.nbElements,
      ¬ ((List.range 3).map fun v => d.toModel.uniqueVertex ⟨⟨.surface, c.id⟩, v⟩).Perm (uvs.map some) := by
  show (d.surfaces.flatMap _) = [] ↔ _
  rw [List.flatMap_eq_nil_iff]
  refine forall_congr' fun c => forall_congr' fun _ => ?_
  rw [List.filterMap_eq_nil_iff]
  refine forall_congr' fun e => ?_
  rw [List.mem_range]
  refine forall_congr' fun _ => ?_
  rw [← List.isPerm_iff]
  simp

theorem first (h1 : Ignores a b) (h2 : Ignores b a) :
    IsBRepPart id (exampleModel a scale sign) (exampleModel (beside a b) scale sign) where
  corners c hc := by
    obtain ⟨x, hx, rfl⟩ := List.mem_map.1 hc
    refine List.mem_map.2 ⟨x, List.mem_append_left _ hx, ?_⟩
    rw [points_first scale h1 (mem_idsOf (kind := .corner) hx)]
  lines c hc := by
    obtain ⟨x, hx, rfl⟩ := List.mem_map.1 hc
    refine List.mem_map.2 ⟨x, List.mem_append_left _ hx, ?_⟩
    rw [points_first scale h1 (mem_idsOf (kind := .line) hx)]
  surfaces c hc := by
    obtain ⟨x, hx, rfl⟩ := List.mem_map.1 hc
    refine List.mem_map.2 ⟨x, List.mem_append_left _ hx, ?_⟩
    rw [points_first scale h1 (mem_idsOf (kind := .surface) hx)]
  blocks c hc := by
    obtain ⟨x, hx, rfl⟩ := List.mem_map.1 hc
    refine List.mem_map.2 ⟨x, List.mem_append_left _ hx, ?_⟩
    rw [points_first scale h1 (mem_idsOf (kind := .block) hx)]
  noId := rfl
  injective := Function.injective_id
  numbers u hu := by
    show u < (a.vertices ++ b.vertices).length
    have : u < a.vertices.length := hu
    rw [List.length_append]
    omega
  componentMeshVertices u hu := by
    show (a.vertices ++ b.vertices).getD u [] = a.vertices.getD u []
    rw [List.getD_eq_getElem?_getD, List.getD_eq_getElem?_getD, List.getElem?_append_left hu]
  uniqueVertex cmv hid := by
    obtain ⟨⟨kind, id⟩, v⟩ := cmv
    rw [Option.map_id]
    exact uniqueVertex_first h1 (hasId_example hid) kind v
  isBoundary x y hx _ := by
    show (a.boundary ++ b.boundary).any _ = a.boundary.any _
    rw [List.any_append, show b.boundary.any _ = false from (related h1 (hasId_example hx) y).1, Bool.or_false]
  isInternal x y hx _ := by
    show (a.internal ++ b.internal).any _ = a.internal.any _
    rw [List.any_append, show b.internal.any _ = false from (related h1 (hasId_example hx) y).2, Bool.or_false]
  embeddings x hx := by
    show TopologyData.select ((a.internal ++ b.internal).map _) x = _
    rw [List.map_append, select_append, show TopologyData.select (b.internal.map _) x = [] from
      (relations h1 (hasId_example hx)).1, List.append_nil]
    rfl
  incidences x hx := by
    show TopologyData.select ((a.boundary ++ b.boundary).map _) x = _
    rw [List.map_append, select_append, show TopologyData.select (b.boundary.map _) x = [] from
      (relations h1 (hasId_example hx)).2.1, List.append_nil]
    rfl
  isVertexOnBorder s hs := by
    obtain ⟨x, hx, rfl⟩ := List.mem_map.1 hs
    funext v
    have := notBorder h1 (mem_idsOf (kind := .surface) hx) v
    show decide ((x.id, v) ∈ a.border ++ b.border) = decide ((x.id, v) ∈ a.border)
    rw [decide_eq_decide, List.mem_append]
    exact ⟨fun h => h.resolve_right this, .inl⟩
  lineComponentMeshEdges u v hu hv := by
    have hu : u < a.vertices.length := hu
    show (exampleModel (beside a b) scale sign).lineComponentMeshEdges u v = [] ↔ _
    rw [edges_nil, edges_nil]
    constructor
    · intro h c hc e he
      have := h c (List.mem_append_left _ hc) e he
      simpa only [uniqueVertex_first h1 (mem_idsOf (kind := .line) hc)] using this
    · intro h c hc e he
      rcases List.mem_append.1 hc with hc | hc
      · have := h c hc e he
        simpa only [uniqueVertex_first h1 (mem_idsOf (kind := .line) hc)] using this
      · simp only [uniqueVertex_second h2 (mem_idsOf (kind := .line) hc), Option.map_eq_some_iff]
        rintro (⟨⟨x, _, e⟩, _⟩ | ⟨_, ⟨x, _, e⟩⟩) <;> omega
  boundaries x hx := by
    show TopologyData.select ((a.boundary ++ b.boundary).map _) x = _
    rw [List.map_append, select_append, show TopologyData.select (b.boundary.map _) x = [] from
      (relations h1 (hasId_example hx)).2.2, List.append_nil]
    rfl
  surfaceEdges l hl := by
    obtain ⟨x, hx, rfl⟩ := List.mem_map.1 hl
    funext e
    show TopologyData.select (a.surfaceEdges ++ b.surfaceEdges) (x.id, e) = _
    rw [select_append, show TopologyData.select b.surfaceEdges (x.id, e) = [] from
      (around h1 (mem_idsOf (kind := .line) hx) e).1, List.append_nil]
    rfl
  blockEdges l hl := by
    obtain ⟨x, hx, rfl⟩ := List.mem_map.1 hl
    funext e
    show TopologyData.select (a.blockEdges ++ b.blockEdges) (x.id, e) = _
    rw [select_append, show TopologyData.select b.blockEdges (x.id, e) = [] from
      (around h1 (mem_idsOf (kind := .line) hx) e).2.1, List.append_nil]
    rfl
  blockPolygons l hl := by
    obtain ⟨x, hx, rfl⟩ := List.mem_map.1 hl
    funext e
    show TopologyData.select (a.blockPolygons ++ b.blockPolygons) (x.id, e) = _
    rw [select_append, show TopologyData.select b.blockPolygons (x.id, e) = [] from
      (around h1 (mem_idsOf (kind := .surface) hx) e).2.2, List.append_nil]
    rfl
  surfaceComponentMeshPolygons uvs huvs := by
    rw [List.map_id, polygons_nil, polygons_nil]
    constructor
    · intro h c hc p hp
      have := h c (List.mem_append_left _ hc) p hp
      simpa only [uniqueVertex_first h1 (mem_idsOf (kind := .surface) hc)] using this
    · intro h c hc p hp
      rcases List.mem_append.1 hc with hc | hc
      · have := h c hc p hp
        simpa only [uniqueVertex_first h1 (mem_idsOf (kind := .surface) hc)] using this
      · simp only [uniqueVertex_second h2 (mem_idsOf (kind := .surface) hc)]
        intro hp
        have hm : (b.toModel.uniqueVertex ⟨⟨.surface, c.id⟩, 0⟩).map (· + a.vertices.length) ∈ uvs.map some :=
          hp.subset (List.mem_map.2 ⟨0, by decide, rfl⟩)
        obtain ⟨u, hu, e⟩ := List.mem_map.1 hm
        obtain ⟨y, _, e⟩ := Option.map_eq_some_iff.1 e.symm
        have : u < a.vertices.length := huvs u hu
        exact absurd this (by rw [← e]; exact Nat.not_lt.2 (Nat.le_add_left _ _))

theorem second (h1 : Ignores a b) (h2 : Ignores b a) (hl : AllLinkedData b) :
    IsBRepPart (· + a.vertices.length) (exampleModel b (fun n => scale (n + a.vertices.length)) sign)
      (exampleModel (beside a b) scale sign) where
  corners c hc := by
    obtain ⟨x, hx, rfl⟩ := List.mem_map.1 hc
    refine List.mem_map.2 ⟨x, List.mem_append_right _ hx, ?_⟩
    rw [points_second scale h2 (mem_idsOf (kind := .corner) hx) (hl .corner (by decide) x hx)]
  lines c hc := by
    obtain ⟨x, hx, rfl⟩ := List.mem_map.1 hc
    refine List.mem_map.2 ⟨x, List.mem_append_right _ hx, ?_⟩
    rw [points_second scale h2 (mem_idsOf (kind := .line) hx) (hl .line (by decide) x hx)]
  surfaces c hc := by
    obtain ⟨x, hx, rfl⟩ := List.mem_map.1 hc
    refine List.mem_map.2 ⟨x, List.mem_append_right _ hx, ?_⟩
    rw [points_second scale h2 (mem_idsOf (kind := .surface) hx) (hl .surface (by decide) x hx)]
  blocks c hc := by
    obtain ⟨x, hx, rfl⟩ := List.mem_map.1 hc
    refine List.mem_map.2 ⟨x, List.mem_append_right _ hx, ?_⟩
    rw [points_second scale h2 (mem_idsOf (kind := .block) hx) (hl .block (by decide) x hx)]
  noId := rfl
  injective x y e := Nat.add_right_cancel e
  numbers u hu := by
    show u + a.vertices.length < (a.vertices ++ b.vertices).length
    have : u < b.vertices.length := hu
    rw [List.length_append]
    omega
  componentMeshVertices u hu := by
    show (a.vertices ++ b.vertices).getD (u + a.vertices.length) [] = b.vertices.getD u []
    rw [List.getD_eq_getElem?_getD, List.getD_eq_getElem?_getD, List.getElem?_append_right (Nat.le_add_left _ _),
      Nat.add_sub_cancel]
  uniqueVertex cmv hid := by
    obtain ⟨⟨kind, id⟩, v⟩ := cmv
    exact uniqueVertex_second h2 (hasId_example hid) kind v
  isBoundary x y hx _ := by
    show (a.boundary ++ b.boundary).any _ = b.boundary.any _
    rw [List.any_append, show a.boundary.any _ = false from (related h2 (hasId_example hx) y).1, Bool.false_or]
  isInternal x y hx _ := by
    show (a.internal ++ b.internal).any _ = b.internal.any _
    rw [List.any_append, show a.internal.any _ = false from (related h2 (hasId_example hx) y).2, Bool.false_or]
  embeddings x hx := by
    show TopologyData.select ((a.internal ++ b.internal).map _) x = _
    rw [List.map_append, select_append, show TopologyData.select (a.internal.map _) x = [] from
      (relations h2 (hasId_example hx)).1, List.nil_append]
    rfl
  incidences x hx := by
    show TopologyData.select ((a.boundary ++ b.boundary).map _) x = _
    rw [List.map_append, select_append, show TopologyData.select (a.boundary.map _) x = [] from
      (relations h2 (hasId_example hx)).2.1, List.nil_append]
    rfl
  isVertexOnBorder s hs := by
    obtain ⟨x, hx, rfl⟩ := List.mem_map.1 hs
    funext v
    have := notBorder h2 (mem_idsOf (kind := .surface) hx) v
    show decide ((x.id, v) ∈ a.border ++ b.border) = decide ((x.id, v) ∈ b.border)
    rw [decide_eq_decide, List.mem_append]
    exact ⟨fun h => h.resolve_left this, .inr⟩
  lineComponentMeshEdges u v hu hv := by
    show (exampleModel (beside a b) scale sign).lineComponentMeshEdges (u + a.vertices.length) (v + a.vertices.length) = [] ↔ _
    rw [edges_nil, edges_nil]
    constructor
    · intro h c hc e he
      have := h c (List.mem_append_right _ hc) e he
      simp only [uniqueVertex_second h2 (mem_idsOf (kind := .line) hc), Option.map_eq_some_iff, Nat.add_right_cancel_iff,
        exists_eq_right] at this
      exact this
    · intro h c hc e he
      rcases List.mem_append.1 hc with hc | hc
      · simp only [uniqueVertex_first h1 (mem_idsOf (kind := .line) hc)]
        rintro (⟨e, _⟩ | ⟨_, e⟩) <;> exact absurd (number_lt e) (Nat.not_lt.2 (Nat.le_add_left _ _))
      · have := h c hc e he
        simp only [uniqueVertex_second h2 (mem_idsOf (kind := .line) hc), Option.map_eq_some_iff, Nat.add_right_cancel_iff,
          exists_eq_right]
        exact this
  boundaries x hx := by
    show TopologyData.select ((a.boundary ++ b.boundary).map _) x = _
    rw [List.map_append, select_append, show TopologyData.select (a.boundary.map _) x = [] from
      (relations h2 (hasId_example hx)).2.2, List.nil_append]
    rfl
  surfaceEdges l hl := by
    obtain ⟨x, hx, rfl⟩ := List.mem_map.1 hl
    funext e
    show TopologyData.select (a.surfaceEdges ++ b.surfaceEdges) (x.id, e) = _
    rw [select_append, show TopologyData.select a.surfaceEdges (x.id, e) = [] from
      (around h2 (mem_idsOf (kind := .line) hx) e).1, List.nil_append]
    rfl
  blockEdges l hl := by
    obtain ⟨x, hx, rfl⟩ := List.mem_map.1 hl
    funext e
    show TopologyData.select (a.blockEdges ++ b.blockEdges) (x.id, e) = _
    rw [select_append, show TopologyData.select a.blockEdges (x.id, e) = [] from
      (around h2 (mem_idsOf (kind := .line) hx) e).2.1, List.nil_append]
    rfl
  blockPolygons l hl := by
    obtain ⟨x, hx, rfl⟩ := List.mem_map.1 hl
    funext e
    show TopologyData.select (a.blockPolygons ++ b.blockPolygons) (x.id, e) = _
    rw [select_append, show TopologyData.select a.blockPolygons (x.id, e) = [] from
      (around h2 (mem_idsOf (kind := .surface) hx) e).2.2, List.nil_append]
    rfl
  surfaceComponentMeshPolygons uvs huvs := by
    rw [polygons_nil, polygons_nil]
    have hmap : (uvs.map (· + a.vertices.length)).map some = (uvs.map some).map (Option.map (· + a.vertices.length)) := by
      rw [List.map_map, List.map_map]; rfl
    have hinj : Function.Injective (Option.map (· + a.vertices.length) : Option Nat → Option Nat) :=
      Option.map_injective fun x y e => Nat.add_right_cancel e
    have hperm : ∀ c ∈ b.surfaces, (((List.range 3).map fun v => (beside a b).toModel.uniqueVertex ⟨⟨.surface, c.id⟩, v⟩).Perm
        ((uvs.map (· + a.vertices.length)).map some) ↔
        ((List.range 3).map fun v => b.toModel.uniqueVertex ⟨⟨.surface, c.id⟩, v⟩).Perm (uvs.map some)) := by
      intro c hc
      simp only [uniqueVertex_second h2 (mem_idsOf (kind := .surface) hc)]
      rw [hmap, show ((List.range 3).map fun v => (b.toModel.uniqueVertex ⟨⟨.surface, c.id⟩, v⟩).map (· + a.vertices.length)) =
        ((List.range 3).map fun v => b.toModel.uniqueVertex ⟨⟨.surface, c.id⟩, v⟩).map
          (Option.map (· + a.vertices.length)) from by rw [List.map_map]; rfl]
      exact List.map_perm_map_iff hinj
    constructor
    · intro h c hc p hp
      exact fun hx => h c (List.mem_append_right _ hc) p hp ((hperm c hc).2 hx)
    · intro h c hc p hp
      rcases List.mem_append.1 hc with hc | hc
      · simp only [uniqueVertex_first h1 (mem_idsOf (kind := .surface) hc)]
        intro hp
        have hm : a.toModel.uniqueVertex ⟨⟨.surface, c.id⟩, 0⟩ ∈ (uvs.map (· + a.vertices.length)).map some :=
          hp.subset (List.mem_map.2 ⟨0, by decide, rfl⟩)
        obtain ⟨u, hu, e⟩ := List.mem_map.1 hm
        obtain ⟨y, _, rfl⟩ := List.mem_map.1 hu
        exact absurd (number_lt e.symm) (Nat.not_lt.2 (Nat.le_add_left _ _))
      · exact fun hx => h c hc p hp ((hperm c hc).1 hx)

theorem madeOf (h1 : Ignores a b) (h2 : Ignores b a) (hl : AllLinkedData b) :
    MadeOf (exampleModel (beside a b) scale sign) (exampleModel a scale sign)
      (exampleModel b (fun n => scale (n + a.vertices.length)) sign) id (· + a.vertices.length) where
  first := (first scale sign h1 h2).toIsPart
  second := (second scale sign h1 h2 hl).toIsPart
  corners c hc := by
    obtain ⟨x, hx, rfl⟩ := List.mem_map.1 hc
    rcases List.mem_append.1 hx with hx | hx
    · refine .inl (List.mem_map.2 ⟨x, hx, ?_⟩)
      rw [points_first scale h1 (mem_idsOf (kind := .corner) hx)]
    · refine .inr (List.mem_map.2 ⟨x, hx, ?_⟩)
      rw [points_second scale h2 (mem_idsOf (kind := .corner) hx) (hl .corner (by decide) x hx)]
  lines c hc := by
    obtain ⟨x, hx, rfl⟩ := List.mem_map.1 hc
    rcases List.mem_append.1 hx with hx | hx
    · refine .inl (List.mem_map.2 ⟨x, hx, ?_⟩)
      rw [points_first scale h1 (mem_idsOf (kind := .line) hx)]
    · refine .inr (List.mem_map.2 ⟨x, hx, ?_⟩)
      rw [points_second scale h2 (mem_idsOf (kind := .line) hx) (hl .line (by decide) x hx)]
  surfaces c hc := by
    obtain ⟨x, hx, rfl⟩ := List.mem_map.1 hc
    rcases List.mem_append.1 hx with hx | hx
    · refine .inl (List.mem_map.2 ⟨x, hx, ?_⟩)
      rw [points_first scale h1 (mem_idsOf (kind := .surface) hx)]
    · refine .inr (List.mem_map.2 ⟨x, hx, ?_⟩)
      rw [points_second scale h2 (mem_idsOf (kind := .surface) hx) (hl .surface (by decide) x hx)]
  blocks c hc := by
    obtain ⟨x, hx, rfl⟩ := List.mem_map.1 hc
    rcases List.mem_append.1 hx with hx | hx
    · refine .inl (List.mem_map.2 ⟨x, hx, ?_⟩)
      rw [points_first scale h1 (mem_idsOf (kind := .block) hx)]
    · refine .inr (List.mem_map.2 ⟨x, hx, ?_⟩)
      rw [points_second scale h2 (mem_idsOf (kind := .block) hx) (hl .block (by decide) x hx)]
  different x hx hy := h1 x (hasId_example hx) x (by
    unfold usedIds
    simp only [List.mem_append]
    exact .inl (.inl (.inl (.inl (.inl (.inl (.inl (.inl (.inl (hasId_example hy)))))))))) rfl
  vertices u hu := by
    have hu : u < (a.vertices ++ b.vertices).length := hu
    rw [List.length_append] at hu
    by_cases h : u < a.vertices.length
    · exact .inl ⟨u, h, rfl⟩
    · refine .inr ⟨u - a.vertices.length, ?_, ?_⟩
      · show u - a.vertices.length < b.vertices.length
        omega
      · show u = u - a.vertices.length + a.vertices.length
        omega

theorem numbersKnown (d : TopologyData) (hd : d.vertices.length < 4294967295) : NumbersKnown (exampleModel d scale sign) where
  range _ _ h := number_lt h
  noId _ h := absurd (number_lt h) (Nat.not_lt.2 (Nat.le_of_lt hd))

/-- No triangles of two Surfaces without common unique vertex meet, for the geometry of the examples. -/
theorem apart (Meet : ModelSurface Nat → ModelSurface Nat → List Index → List Index → Prop)
    (hm : ∀ r1 r2 t1 t2, (∀ v ∈ t1, ∀ w ∈ t2, r1.uniqueVertex v ≠ r2.uniqueVertex w) → ¬ Meet r1 r2 t1 t2)
    (h1 : Ignores a b) (h2 : Ignores b a) (hla : ∀ s ∈ a.surfaces, s.active = true → ∀ v < 3, a.toModel.uniqueVertex ⟨⟨.surface, s.id⟩, v⟩ ≠ none)
    (hlb : ∀ s ∈ b.surfaces, s.active = true → ∀ v < 3, b.toModel.uniqueVertex ⟨⟨.surface, s.id⟩, v⟩ ≠ none) :
    FarApart modelLibrary Meet (fun _ _ => False) (exampleModel (beside a b) scale sign) (exampleModel a scale sign)
      (exampleModel b (fun n => scale (n + a.vertices.length)) sign) where
  points _ _ _ _ _ _ _ _ _ _ := ⟨id, id⟩
  polygons s1 hs1 s2 hs2 a1 a2 r1 r2 g1 g2 p q _ _ t1 ht1 t2 ht2 := by
    obtain ⟨x1, hx1, e1⟩ := List.mem_map.1 hs1
    obtain ⟨x2, hx2, e2⟩ := List.mem_map.1 hs2
    have v1 : ∀ v ∈ t1, v < 3 := by
      have er := Plain.given_surface_eq g1
      subst er
      refine Place.fan_known (s := s1) (p := p) (fun k hk => ?_) ht1
      subst e1
      exact hk
    have v2 : ∀ v ∈ t2, v < 3 := by
      have er := Plain.given_surface_eq g2
      subst er
      refine Place.fan_known (s := s2) (p := q) (fun k hk => ?_) ht2
      subst e2
      exact hk
    have hne : ∀ v ∈ t1, ∀ w ∈ t2, r1.uniqueVertex v ≠ r2.uniqueVertex w := by
      intro v hv w hw
      have n1 := g1.uniqueVertex v
      have n2 := g2.uniqueVertex w
      subst e1 e2
      unfold NumberOf at n1 n2
      rw [show (exampleModel (beside a b) scale sign).uniqueVertex ⟨⟨.surface, x1.id⟩, v⟩ = _ from
        uniqueVertex_first h1 (mem_idsOf (kind := .surface) hx1) .surface v] at n1
      rw [show (exampleModel (beside a b) scale sign).uniqueVertex ⟨⟨.surface, x2.id⟩, w⟩ = _ from
        uniqueVertex_second h2 (mem_idsOf (kind := .surface) hx2) .surface w] at n2
      have k1 := n1.resolve_right fun h => hla x1 hx1 a1 v (v1 v hv) h.1
      have k2 := n2.resolve_right fun h => hlb x2 hx2 a2 w (v2 w hw) (Option.map_eq_none_iff.1 h.1)
      obtain ⟨y, _, k2⟩ := Option.map_eq_some_iff.1 k2
      have := number_lt k1
      intro e
      rw [e, ← k2] at this
      exact absurd this (Nat.not_lt.2 (Nat.le_add_left _ _))
    exact ⟨hm _ _ _ _ hne, hm _ _ _ _ fun v hv w hw e => hne w hw v hv e.symm⟩

end

end Inspector.Parts
