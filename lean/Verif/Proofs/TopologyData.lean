import Verif.Spec.Topology
/-!
Finite descriptions of topology models, used only to exhibit concrete models (examples and
counterexamples): the hypotheses of the theorems are then checked by evaluation.
-/
namespace Inspector
open Spec

/-- A finite description of a model. -/
structure TopologyData where
  corners : List TopologyComponent := []
  lines : List TopologyComponent := []
  surfaces : List TopologyComponent := []
  blocks : List TopologyComponent := []
  /-- component mesh vertices of each unique vertex -/
  vertices : List (List ComponentMeshVertex) := []
  /-- (boundary, incident) -/
  boundary : List (ComponentID × ComponentID) := []
  /-- (internal, embedding) -/
  internal : List (ComponentID × ComponentID) := []
  /-- ((line, edge), (surface, number)) -/
  surfaceEdges : List ((Uuid × Index) × (Uuid × Nat)) := []
  blockEdges : List ((Uuid × Index) × (Uuid × Nat)) := []
  blockPolygons : List ((Uuid × Index) × (Uuid × Nat)) := []
  /-- ((surface, facet), vertices) -/
  polygons : List ((Uuid × Index) × List Index) := []
  /-- (surface, vertex) pairs on a border -/
  border : List (Uuid × Index) := []

namespace TopologyData
variable (d : TopologyData)

/-- Components of a kind. -/
def components : ComponentType → List TopologyComponent
  | .corner => d.corners
  | .line => d.lines
  | .surface => d.surfaces
  | .block => d.blocks
  | .other => []

/-- Values associated to a key in a list of pairs. -/
def select {K V : Type} [DecidableEq K] (l : List (K × V)) (k : K) : List V :=
  l.filterMap fun e => if e.1 = k then some e.2 else none

theorem mem_select {K V : Type} [DecidableEq K] {l : List (K × V)} {k : K} {x : V} :
    x ∈ select l k ↔ (k, x) ∈ l := by
  unfold select
  rw [List.mem_filterMap]
  constructor
  · rintro ⟨⟨a, b⟩, he, h⟩
    by_cases hk : a = k
    · simp [hk] at h; subst hk; subst h; exact he
    · simp [hk] at h
  · intro h; exact ⟨_, h, by simp⟩

/-- The model. -/
def toModel : TopologyModel where
  components := d.components
  nbUniqueVertices := d.vertices.length
  componentMeshVertices v := d.vertices.getD v []
  uniqueVertex cmv := d.vertices.findIdx? fun l => decide (cmv ∈ l)
  isBoundary a b := d.boundary.any fun e => e.1.id == a && e.2.id == b
  isInternal a b := d.internal.any fun e => e.1.id == a && e.2.id == b
  embeddings id := select (d.internal.map fun e => (e.1.id, e.2)) id
  incidences id := select (d.boundary.map fun e => (e.1.id, e.2)) id
  boundaries id := select (d.boundary.map fun e => (e.2.id, e.1)) id
  isVertexOnBorder s v := decide ((s, v) ∈ d.border)
  surfaceEdges l e := select d.surfaceEdges (l, e)
  blockEdges l e := select d.blockEdges (l, e)
  blockPolygons s f := select d.blockPolygons (s, f)
  polygonVertices s f := (select d.polygons (s, f)).flatten

/-- `Has` on the data. -/
def has (c : ComponentID) : Bool := (d.components c.type).any fun x => x.id == c.id

/-- Checks implying `WellFormed`. -/
def wellFormed : Bool :=
  decide (d.corners.map TopologyComponent.id).Nodup && decide (d.lines.map TopologyComponent.id).Nodup &&
  decide (d.surfaces.map TopologyComponent.id).Nodup && decide (d.blocks.map TopologyComponent.id).Nodup &&
  (d.vertices.all fun l => l.all fun cmv => d.has cmv.component_id) &&
  (d.internal.all fun e => d.has e.2) && (d.boundary.all fun e => d.has e.2 && d.has e.1)

theorem has_iff {c : ComponentID} (h : d.has c = true) : Has d.toModel c.type c.id := by
  unfold has at h
  rw [List.any_eq_true] at h
  obtain ⟨x, hx, he⟩ := h
  exact ⟨x, hx, by simpa using he⟩

theorem wf_of_check (h : d.wellFormed = true) : WellFormed d.toModel := by
  unfold wellFormed at h
  simp only [Bool.and_eq_true, decide_eq_true_eq, List.all_eq_true] at h
  obtain ⟨⟨⟨⟨⟨⟨h1, h2⟩, h3⟩, h4⟩, h5⟩, h6⟩, h7⟩ := h
  constructor
  · intro kind
    cases kind
    · exact h1
    · exact h2
    · exact h3
    · exact h4
    · exact List.nodup_nil
  · intro v hv cmv hm
    have hm' : cmv ∈ d.vertices.getD v [] := hm
    have hv' : v < d.vertices.length := hv
    rw [List.getD_eq_getElem?_getD, List.getElem?_eq_getElem hv', Option.getD_some] at hm'
    exact d.has_iff (h5 _ (List.getElem_mem hv') cmv hm')
  · intro id c hc
    have := mem_select.1 hc
    obtain ⟨e, he, heq⟩ := List.mem_map.1 this
    simp only [Prod.mk.injEq] at heq
    rw [← heq.2]
    exact d.has_iff (h6 e he)
  · intro id c hc
    have := mem_select.1 hc
    obtain ⟨e, he, heq⟩ := List.mem_map.1 this
    simp only [Prod.mk.injEq] at heq
    rw [← heq.2]
    exact d.has_iff (h7 e he).1
  · intro id c hc
    have := mem_select.1 hc
    obtain ⟨e, he, heq⟩ := List.mem_map.1 this
    simp only [Prod.mk.injEq] at heq
    rw [← heq.2]
    exact d.has_iff (h7 e he).2

/-- Checks implying that boundaries and incidences of lines and surfaces agree. -/
def coherentLines : Bool := d.boundary.all fun e => decide (e.1.type = .line ↔ e.2.type = .surface)

theorem coherent_of_check (h : d.coherentLines = true) (line s : Uuid) :
    ⟨.surface, s⟩ ∈ d.toModel.incidences line ↔ ⟨.line, line⟩ ∈ d.toModel.boundaries s := by
  unfold coherentLines at h
  simp only [List.all_eq_true, decide_eq_true_eq] at h
  have e1 : d.toModel.incidences line = select (d.boundary.map fun e => (e.1.id, e.2)) line := rfl
  have e2 : d.toModel.boundaries s = select (d.boundary.map fun e => (e.2.id, e.1)) s := rfl
  rw [e1, e2, mem_select, mem_select, List.mem_map, List.mem_map]
  constructor
  · rintro ⟨⟨⟨t1, i1⟩, ⟨t2, i2⟩⟩, he, heq⟩
    simp only [Prod.mk.injEq, ComponentID.mk.injEq] at heq
    obtain ⟨rfl, rfl, rfl⟩ := heq
    have : t1 = .line := (h _ he).2 rfl
    exact ⟨_, he, by rw [this]⟩
  · rintro ⟨⟨⟨t1, i1⟩, ⟨t2, i2⟩⟩, he, heq⟩
    simp only [Prod.mk.injEq, ComponentID.mk.injEq] at heq
    obtain ⟨rfl, rfl, rfl⟩ := heq
    have : t2 = .surface := (h _ he).1 rfl
    exact ⟨_, he, by rw [this]⟩

/-- Checks implying `AroundWellFormed`. -/
def aroundWellFormed : Bool :=
  (d.surfaceEdges.all fun e => d.has ⟨.surface, e.2.1⟩) &&
  (d.blockEdges.all fun e => d.has ⟨.block, e.2.1⟩) &&
  (d.blockPolygons.all fun e => d.has ⟨.block, e.2.1⟩) &&
  decide (d.surfaceEdges.map fun e => (e.1, e.2.1)).Nodup &&
  decide (d.blockEdges.map fun e => (e.1, e.2.1)).Nodup &&
  (d.lines.all fun c => decide (c.nbElements < c.nbVertices) || c.nbElements == 0) &&
  (d.surfaces.all fun c => (List.range c.nbElements).all fun f =>
    ((select d.polygons (c.id, f)).flatten.all fun v => decide (v < c.nbVertices)))

theorem select_nodup {K V : Type} [DecidableEq K] {l : List (K × (Uuid × V))} {k : K}
    (h : (l.map fun e => (e.1, e.2.1)).Nodup) : ((select l k).map Prod.fst).Nodup := by
  induction l with
  | nil => exact List.nodup_nil
  | cons e l ih =>
    rw [List.map_cons, List.nodup_cons] at h
    unfold select
    rw [List.filterMap_cons]
    by_cases hk : e.1 = k
    · simp only [hk, if_true, List.map_cons, List.nodup_cons]
      refine ⟨?_, ih h.2⟩
      intro hm
      apply h.1
      obtain ⟨x, hx, hxe⟩ := List.mem_map.1 hm
      have := mem_select.1 hx
      exact List.mem_map.2 ⟨(k, x), this, by rw [hxe, hk]⟩
    · simp only [hk, if_false]
      exact ih h.2

theorem aw_of_check (h : d.aroundWellFormed = true) : AroundWellFormed d.toModel := by
  unfold aroundWellFormed at h
  simp only [Bool.and_eq_true, decide_eq_true_eq, List.all_eq_true, Bool.or_eq_true, beq_iff_eq] at h
  obtain ⟨⟨⟨⟨⟨⟨h1, h2⟩, h3⟩, h4⟩, h5⟩, h6⟩, h7⟩ := h
  constructor
  · intro map; exact List.Perm.refl _
  · intro line e s n hs; exact d.has_iff (h1 _ (mem_select.1 hs))
  · intro line e; exact select_nodup h4
  · intro line e s n hs; exact d.has_iff (h2 _ (mem_select.1 hs))
  · intro line e; exact select_nodup h5
  · intro line e s n hs; exact d.has_iff (h3 _ (mem_select.1 hs))
  · intro c hc e he v hv
    have hv' : v ∈ [e, e + 1] := hv
    have := h6 c hc
    simp only [List.mem_cons, List.not_mem_nil, or_false] at hv'
    unfold Index at *
    omega
  · intro c hc f hf v hv
    exact h7 c hc f (List.mem_range.2 hf) v hv

end TopologyData
end Inspector
