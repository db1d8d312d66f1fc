import Verif.Proofs.Concurrency
import Verif.Proofs.FusedSurface
import Verif.Proofs.TopologyBlocksInspect
import Verif.Proofs.TopologyLinesInspect
import Verif.Proofs.TopologySurfacesInspect
import Verif.Proofs.TopologyUnreadable
import Verif.Spec.TopologyInspector
/-! Proofs on the topology inspectors: links of the unique vertices, validity. -/
namespace Inspector
open Spec

section links
variable {m : TopologyModel} (ui : UniqueIds m)

include ui in
theorem anyComponent_ok {kind : ComponentType} (hk : kind ∈ brepKinds) {c : TopologyComponent}
    (hc : c ∈ m.components kind) : m.anyComponent c.id = .ok c := by
  unfold TopologyModel.anyComponent
  have hmem : c ∈ m.components .corner ++ m.components .line ++ m.components .surface ++ m.components .block := by
    simp only [brepKinds, List.mem_cons, List.not_mem_nil, or_false] at hk
    rcases hk with rfl | rfl | rfl | rfl <;> simp [hc]
  cases hf : (m.components .corner ++ m.components .line ++ m.components .surface ++ m.components .block).find?
      fun x => x.id == c.id with
  | none =>
    rw [List.find?_eq_none] at hf
    exact absurd (by simp) (hf c hmem)
  | some c' =>
    have hid : c'.id = c.id := by simpa using List.find?_some hf
    have hm' := List.mem_of_find?_eq_some hf
    have : ∃ kind' ∈ brepKinds, c' ∈ m.components kind' := by
      simp only [List.mem_append] at hm'
      rcases hm' with ((h | h) | h) | h
      · exact ⟨.corner, by simp [brepKinds], h⟩
      · exact ⟨.line, by simp [brepKinds], h⟩
      · exact ⟨.surface, by simp [brepKinds], h⟩
      · exact ⟨.block, by simp [brepKinds], h⟩
    obtain ⟨kind', hk', hc'⟩ := this
    rw [(ui kind' hk' kind hk c' hc' c hc hid).2]

include ui in
theorem vertexExists_iff {kind : ComponentType} (hk : kind ∈ brepKinds) {id : Uuid} {v : Index} :
    (m.has kind id && decide (v < m.nbMeshVertices kind id)) = true ↔
      ∃ c ∈ m.components kind, c.id = id ∧ v < c.nbVertices := by
  unfold TopologyModel.has TopologyModel.nbMeshVertices TopologyModel.component
  constructor
  · intro h
    rw [Bool.and_eq_true, decide_eq_true_eq] at h
    cases hf : (m.components kind).find? fun c => c.id == id with
    | none => rw [hf] at h; exact absurd h.2 (Nat.not_lt_zero _)
    | some c =>
      rw [hf] at h
      exact ⟨c, List.mem_of_find?_eq_some hf, by simpa using List.find?_some hf, h.2⟩
  · rintro ⟨c, hc, rfl, hv⟩
    rw [Bool.and_eq_true, decide_eq_true_eq]
    refine ⟨List.any_eq_true.2 ⟨c, hc, by simp⟩, ?_⟩
    cases hf : (m.components kind).find? fun x => x.id == c.id with
    | none =>
      rw [List.find?_eq_none] at hf
      exact absurd (by simp) (hf c hc)
    | some c' =>
      have hid : c'.id = c.id := by simpa using List.find?_some hf
      rw [(ui kind hk kind hk c' (List.mem_of_find?_eq_some hf) c hc hid).2]
      exact hv

include ui in
theorem cmvExistsInSection_iff (cmv : ComponentMeshVertex) :
    cmvExistsInSection m cmv = true ↔ CmvExists m sectionKinds cmv := by
  rcases cmv with ⟨⟨kind, id⟩, v⟩
  unfold cmvExistsInSection CmvExists
  have h1 := vertexExists_iff ui (kind := .corner) (by simp [brepKinds]) (id := id) (v := v)
  have h2 := vertexExists_iff ui (kind := .line) (by simp [brepKinds]) (id := id) (v := v)
  have h3 := vertexExists_iff ui (kind := .surface) (by simp [brepKinds]) (id := id) (v := v)
  cases kind <;> simp [sectionKinds] at h1 h2 h3 ⊢
  · exact h1
  · exact h2
  · exact h3

include ui in
theorem cmvExistsInBRep_iff (cmv : ComponentMeshVertex) :
    cmvExistsInBRep m cmv = true ↔ CmvExists m brepKinds cmv := by
  rcases cmv with ⟨⟨kind, id⟩, v⟩
  unfold cmvExistsInBRep CmvExists
  have h1 := vertexExists_iff ui (kind := .corner) (by simp [brepKinds]) (id := id) (v := v)
  have h2 := vertexExists_iff ui (kind := .line) (by simp [brepKinds]) (id := id) (v := v)
  have h3 := vertexExists_iff ui (kind := .surface) (by simp [brepKinds]) (id := id) (v := v)
  have h4 := vertexExists_iff ui (kind := .block) (by simp [brepKinds]) (id := id) (v := v)
  cases kind <;> simp [brepKinds] at h1 h2 h3 h4 ⊢
  · exact h1
  · exact h2
  · exact h3
  · exact h4

/-- The test of a component mesh vertex, for a Section or a BRep. -/
def linkTest (m : TopologyModel) (exist : ComponentMeshVertex → Bool) (uv : Index) (cmv : ComponentMeshVertex) :
    Except Failure Bool :=
  if !exist cmv then .ok true
  else
    match m.anyComponent cmv.component_id.id with
    | .error f => .error f
    | .ok c => .ok (c.active && m.uniqueVertex cmv != some uv)

/-- The addition of a component mesh vertex, for a Section or a BRep. -/
def addLink (m : TopologyModel) (exist : ComponentMeshVertex → Bool) (uv_id : Index) (l : WrongLinks)
    (cmv : ComponentMeshVertex) : Except Failure WrongLinks :=
  if !exist cmv then
    .ok { l with
      inexistent := l.inexistent.add uv_id ("unique vertex " ++ toString uv_id ++
        " is linked to inexistant mesh vertex [" ++ m.cmvString cmv ++ "].") }
  else
    match m.anyComponent cmv.component_id.id with
    | .error f => .error f
    | .ok c =>
      if c.active && m.uniqueVertex cmv != some uv_id then
        .ok { l with
          nonBijective := l.nonBijective.add uv_id ("unique vertex " ++ toString uv_id ++
            " is linked to inexistant mesh vertex [" ++ m.cmvString cmv ++ "].") }
      else .ok l

variable {kinds : List ComponentType} (hks : ∀ k ∈ kinds, k ∈ brepKinds) {exist : ComponentMeshVertex → Bool}
  (he : ∀ cmv, exist cmv = true ↔ CmvExists m kinds cmv)

include ui hks in
/-- The component of an existing component mesh vertex. -/
theorem existing_component {cmv : ComponentMeshVertex} (h : CmvExists m kinds cmv) :
    ∃ c, m.anyComponent cmv.component_id.id = .ok c ∧
      (c.active = true ↔ Active m cmv.component_id.type cmv.component_id.id) := by
  obtain ⟨hk, c, hc, hid, _⟩ := h
  refine ⟨c, by rw [← hid]; exact anyComponent_ok ui (hks _ hk) hc, fun ha => ⟨c, hc, hid, ha⟩, ?_⟩
  rintro ⟨c', hc', hid', ha⟩
  rw [← (ui _ (hks _ hk) _ (hks _ hk) c' hc' c hc (hid'.trans hid.symm)).2]
  exact ha

include ui hks he in
theorem linkTest_decides (uv : Index) (cmv : ComponentMeshVertex) :
    ∃ b, linkTest m exist uv cmv = .ok b ∧ (b = false ↔
      (CmvExists m kinds cmv ∧ (Active m cmv.component_id.type cmv.component_id.id → m.uniqueVertex cmv = some uv))) := by
  unfold linkTest
  by_cases h : CmvExists m kinds cmv
  · obtain ⟨c, hc, ha⟩ := existing_component ui hks h
    rw [(he cmv).2 h, hc]
    refine ⟨_, rfl, ?_⟩
    by_cases hac : c.active = true
    · simp [hac, h, ha.1 hac]
    · have : ¬ Active m cmv.component_id.type cmv.component_id.id := fun x => hac (ha.2 x)
      simp [hac, h, this]
  · have : exist cmv = false := by
      rw [← Bool.not_eq_true, he]; exact h
    rw [this]
    exact ⟨true, rfl, by simp [h]⟩

include ui hks he in
theorem bijective_decides :
    ∃ b, loopAnyM (fun uv => if (m.componentMeshVertices uv).isEmpty then .ok true
        else loopAnyM (linkTest m exist uv) (m.componentMeshVertices uv)) (List.range m.nbUniqueVertices) = .ok b ∧
      (b = false ↔ BijectivelyLinked m kinds) := by
  obtain ⟨b, hb, hp⟩ := loopAnyM_decides (fun uv => if (m.componentMeshVertices uv).isEmpty then .ok true
        else loopAnyM (linkTest m exist uv) (m.componentMeshVertices uv)) (List.range m.nbUniqueVertices)
    (fun uv => m.componentMeshVertices uv ≠ [] ∧ ∀ cmv ∈ m.componentMeshVertices uv, CmvExists m kinds cmv ∧
      (Active m cmv.component_id.type cmv.component_id.id → m.uniqueVertex cmv = some uv)) (by
      intro uv _
      by_cases h : m.componentMeshVertices uv = []
      · refine ⟨true, by simp [h], by simp [h]⟩
      · obtain ⟨b, hb, hp⟩ := loopAnyM_decides _ _ _ (fun cmv _ => linkTest_decides ui hks he uv cmv)
        refine ⟨b, ?_, ?_⟩
        · rw [if_neg (by simpa using h)]; exact hb
        · rw [hp]; exact ⟨fun x => ⟨h, x⟩, fun x => x.2⟩)
  refine ⟨b, hb, hp.trans ?_⟩
  simp only [List.mem_range]
  rfl

open Classical in
include ui hks he in
theorem addLinks_issues (uv : Index) : ∀ (cmvs : List ComponentMeshVertex) (l : WrongLinks),
    ∃ l', cmvs.foldlM (addLink m exist uv) l = .ok l' ∧ l'.notLinked = l.notLinked ∧
      l'.inexistent.issues = l.inexistent.issues ++
        (cmvs.filter fun cmv => decide (¬ CmvExists m kinds cmv)).map (fun _ => uv) ∧
      l'.nonBijective.issues = l.nonBijective.issues ++
        (cmvs.filter fun cmv => decide (CmvLinkedElsewhere m kinds uv cmv)).map (fun _ => uv) := by
  intro cmvs
  induction cmvs with
  | nil => intro l; exact ⟨l, rfl, rfl, by simp, by simp⟩
  | cons cmv cmvs ih =>
    intro l
    have hstep : ∃ l1, addLink m exist uv l cmv = .ok l1 ∧ l1.notLinked = l.notLinked ∧
        l1.inexistent.issues = l.inexistent.issues ++ (if CmvExists m kinds cmv then [] else [uv]) ∧
        l1.nonBijective.issues = l.nonBijective.issues ++
          (if CmvLinkedElsewhere m kinds uv cmv then [uv] else []) := by
      unfold addLink
      by_cases h : CmvExists m kinds cmv
      · obtain ⟨c, hc, ha⟩ := existing_component ui hks h
        rw [(he cmv).2 h, hc]
        by_cases hb : (c.active && m.uniqueVertex cmv != some uv) = true
        · simp only [hb, Bool.not_true, Bool.false_eq_true, if_false, if_true]
          rw [Bool.and_eq_true] at hb
          have hl : CmvLinkedElsewhere m kinds uv cmv := ⟨h, ha.1 hb.1, by simpa using hb.2⟩
          refine ⟨_, rfl, rfl, by simp [h], by rw [if_pos hl]; rfl⟩
        · simp only [hb, Bool.not_true, Bool.false_eq_true, if_false]
          have hl : ¬ CmvLinkedElsewhere m kinds uv cmv := by
            rintro ⟨_, h2, h3⟩
            exact hb (by rw [ha.2 h2]; simpa using h3)
          exact ⟨l, rfl, rfl, by simp [h], by simp [hl]⟩
      · have : exist cmv = false := by
          rw [← Bool.not_eq_true, he]; exact h
        rw [this]
        have hl : ¬ CmvLinkedElsewhere m kinds uv cmv := fun x => h x.1
        exact ⟨_, rfl, rfl, by rw [if_neg h]; rfl, by simp [hl]⟩
    obtain ⟨l1, h1, n1, i1, b1⟩ := hstep
    obtain ⟨l2, h2, n2, i2, b2⟩ := ih l1
    refine ⟨l2, ?_, n2.trans n1, ?_, ?_⟩
    · rw [List.foldlM_cons, h1]; exact h2
    · rw [i2, i1, List.filter_cons]
      by_cases h : CmvExists m kinds cmv <;> simp [h]
    · rw [b2, b1, List.filter_cons]
      by_cases h : CmvLinkedElsewhere m kinds uv cmv <;> simp [h]

/-- The addition of a unique vertex, for a Section or a BRep. -/
def addLinks (m : TopologyModel) (exist : ComponentMeshVertex → Bool) (l : WrongLinks) (uv_id : Index) :
    Except Failure WrongLinks :=
  if (m.componentMeshVertices uv_id).isEmpty then
    .ok { l with
      notLinked := l.notLinked.add uv_id ("unique vertex " ++ toString uv_id ++
        " is not linked to any mesh vertex.") }
  else (m.componentMeshVertices uv_id).foldlM (addLink m exist uv_id) l

open Classical in
include ui hks he in
theorem addAllLinks_issues : ∀ (uvs : List Index) (l : WrongLinks),
    ∃ l', uvs.foldlM (addLinks m exist) l = .ok l' ∧
      l'.notLinked.issues = l.notLinked.issues ++
        uvs.filter (fun uv => decide (m.componentMeshVertices uv = [])) ∧
      l'.inexistent.issues = l.inexistent.issues ++ uvs.flatMap (fun uv =>
        ((m.componentMeshVertices uv).filter fun cmv => decide (¬ CmvExists m kinds cmv)).map fun _ => uv) ∧
      l'.nonBijective.issues = l.nonBijective.issues ++ uvs.flatMap (fun uv =>
        ((m.componentMeshVertices uv).filter fun cmv => decide (CmvLinkedElsewhere m kinds uv cmv)).map
          fun _ => uv) := by
  intro uvs
  induction uvs with
  | nil => intro l; exact ⟨l, rfl, by simp, by simp, by simp⟩
  | cons uv uvs ih =>
    intro l
    have hstep : ∃ l1, addLinks m exist l uv = .ok l1 ∧
        l1.notLinked.issues = l.notLinked.issues ++ (if m.componentMeshVertices uv = [] then [uv] else []) ∧
        l1.inexistent.issues = l.inexistent.issues ++
          ((m.componentMeshVertices uv).filter fun cmv => decide (¬ CmvExists m kinds cmv)).map (fun _ => uv) ∧
        l1.nonBijective.issues = l.nonBijective.issues ++
          ((m.componentMeshVertices uv).filter fun cmv => decide (CmvLinkedElsewhere m kinds uv cmv)).map
            (fun _ => uv) := by
      unfold addLinks
      by_cases h : m.componentMeshVertices uv = []
      · rw [if_pos (by simp [h])]
        refine ⟨_, rfl, by rw [if_pos h]; rfl, by simp [h], by simp [h]⟩
      · rw [if_neg (by simpa using h)]
        obtain ⟨l1, h1, n1, i1, b1⟩ := addLinks_issues ui hks he uv (m.componentMeshVertices uv) l
        exact ⟨l1, h1, by simp [h, n1], i1, b1⟩
    obtain ⟨l1, h1, n1, i1, b1⟩ := hstep
    obtain ⟨l2, h2, n2, i2, b2⟩ := ih l1
    refine ⟨l2, ?_, ?_, ?_, ?_⟩
    · rw [List.foldlM_cons, h1]; exact h2
    · rw [n2, n1, List.filter_cons]
      by_cases h : m.componentMeshVertices uv = [] <;> simp [h]
    · rw [i2, i1, List.flatMap_cons, List.append_assoc]
    · rw [b2, b1, List.flatMap_cons, List.append_assoc]

include ui in
theorem sectionBijective_decides : Decides (sectionBijectivelyLinked m) (BijectivelyLinked m sectionKinds) := by
  obtain ⟨b, hb, hp⟩ := bijective_decides ui (kinds := sectionKinds) (by simp [sectionKinds, brepKinds])
    (cmvExistsInSection_iff ui)
  refine ⟨!b, ?_, by simpa using hp⟩
  unfold sectionBijectivelyLinked
  have : loopAnyM (sectionLinkIsWrong m) (List.range m.nbUniqueVertices) = .ok b := hb
  rw [this]; rfl

include ui in
theorem brepBijective_decides : Decides (brepBijectivelyLinked m) (BijectivelyLinked m brepKinds) := by
  obtain ⟨b, hb, hp⟩ := bijective_decides ui (kinds := brepKinds) (by simp)
    (cmvExistsInBRep_iff ui)
  refine ⟨!b, ?_, by simpa using hp⟩
  unfold brepBijectivelyLinked
  have : loopAnyM (brepLinkIsWrong m) (List.range m.nbUniqueVertices) = .ok b := hb
  rw [this]; rfl

/-- The lists are empty exactly when the links are bijective. -/
theorem linkLists_nil {a b c : List Index} (h : LinkLists m kinds a b c) :
    (a = [] ∧ b = [] ∧ c = []) ↔ BijectivelyLinked m kinds := by
  obtain ⟨h1, rfl, rfl⟩ := h
  have ha : a = [] ↔ ∀ uv < m.nbUniqueVertices, m.componentMeshVertices uv ≠ [] := by
    constructor
    · rintro rfl uv hv he
      exact absurd ((h1.2 uv).2 ⟨hv, he⟩) (by simp)
    · intro h
      rw [List.eq_nil_iff_forall_not_mem]
      intro uv hu
      exact h uv ((h1.2 uv).1 hu).1 ((h1.2 uv).1 hu).2
  rw [ha]
  simp only [List.flatMap_eq_nil_iff, List.mem_range, List.map_eq_nil_iff, List.filter_eq_nil_iff, decide_eq_true_eq,
    not_not, BijectivelyLinked]
  constructor
  · rintro ⟨h1, h2, h3⟩ uv hv
    refine ⟨h1 uv hv, fun cmv hc => ⟨h2 uv hv cmv hc, fun hact => ?_⟩⟩
    by_contra hne
    exact h3 uv hv cmv hc ⟨h2 uv hv cmv hc, hact, hne⟩
  · intro h
    refine ⟨fun uv hv => (h uv hv).1, fun uv hv cmv hc => ((h uv hv).2 cmv hc).1, ?_⟩
    rintro uv hv cmv hc ⟨_, h2, h3⟩
    exact h3 (((h uv hv).2 cmv hc).2 h2)

theorem exactly_rangeFilter {n : Nat} {p : Index → Prop} [DecidablePred p] :
    Exactly (· < ·) (fun v => v < n ∧ p v) ((List.range n).filter fun v => decide (p v)) := by
  refine ⟨List.Pairwise.filter _ List.pairwise_lt_range, fun v => ?_⟩
  simp [List.mem_filter]

include ui in
theorem sectionAddLinks_spec (result : SectionTopologyInspectionResult)
    (h1 : result.unique_vertices_not_linked_to_any_component.issues = [])
    (h2 : result.unique_vertices_linked_to_inexistant_cmv.issues = [])
    (h3 : result.unique_vertices_nonbijectively_linked_to_cmv.issues = []) :
    ∃ r, sectionAddUniqueVerticesWithWrongLink m result = .ok r ∧ r.corners = result.corners ∧
      r.lines = result.lines ∧ r.surfaces = result.surfaces ∧
      LinkLists m sectionKinds r.unique_vertices_not_linked_to_any_component.issues
        r.unique_vertices_linked_to_inexistant_cmv.issues r.unique_vertices_nonbijectively_linked_to_cmv.issues := by
  classical
  obtain ⟨l, hl, n1, i1, b1⟩ := addAllLinks_issues ui (kinds := sectionKinds) (by simp [sectionKinds, brepKinds])
    (cmvExistsInSection_iff ui) (List.range m.nbUniqueVertices)
    ⟨result.unique_vertices_not_linked_to_any_component, result.unique_vertices_linked_to_inexistant_cmv,
      result.unique_vertices_nonbijectively_linked_to_cmv⟩
  unfold sectionAddUniqueVerticesWithWrongLink
  have : (List.range m.nbUniqueVertices).foldlM (sectionAddWrongLinks m)
    ⟨result.unique_vertices_not_linked_to_any_component, result.unique_vertices_linked_to_inexistant_cmv,
      result.unique_vertices_nonbijectively_linked_to_cmv⟩ = .ok l := hl
  rw [this]
  simp only [h1, h2, h3, List.nil_append] at n1 i1 b1
  refine ⟨_, rfl, rfl, rfl, rfl, ?_, i1, b1⟩
  show Exactly _ _ l.notLinked.issues
  rw [n1]
  convert exactly_rangeFilter (n := m.nbUniqueVertices) (p := fun uv => m.componentMeshVertices uv = [])

include ui in
theorem brepAddLinks_spec (result : BRepTopologyInspectionResult)
    (h1 : result.unique_vertices_not_linked_to_any_component.issues = [])
    (h2 : result.unique_vertices_linked_to_inexistant_cmv.issues = [])
    (h3 : result.unique_vertices_nonbijectively_linked_to_cmv.issues = []) :
    ∃ r, brepAddUniqueVerticesWithWrongLink m result = .ok r ∧ r.corners = result.corners ∧
      r.lines = result.lines ∧ r.surfaces = result.surfaces ∧ r.blocks = result.blocks ∧
      LinkLists m brepKinds r.unique_vertices_not_linked_to_any_component.issues
        r.unique_vertices_linked_to_inexistant_cmv.issues r.unique_vertices_nonbijectively_linked_to_cmv.issues := by
  classical
  obtain ⟨l, hl, n1, i1, b1⟩ := addAllLinks_issues ui (kinds := brepKinds) (by simp)
    (cmvExistsInBRep_iff ui) (List.range m.nbUniqueVertices)
    ⟨result.unique_vertices_not_linked_to_any_component, result.unique_vertices_linked_to_inexistant_cmv,
      result.unique_vertices_nonbijectively_linked_to_cmv⟩
  unfold brepAddUniqueVerticesWithWrongLink
  have : (List.range m.nbUniqueVertices).foldlM (brepAddWrongLinks m)
    ⟨result.unique_vertices_not_linked_to_any_component, result.unique_vertices_linked_to_inexistant_cmv,
      result.unique_vertices_nonbijectively_linked_to_cmv⟩ = .ok l := hl
  rw [this]
  simp only [h1, h2, h3, List.nil_append] at n1 i1 b1
  refine ⟨_, rfl, rfl, rfl, rfl, rfl, ?_, i1, b1⟩
  show Exactly _ _ l.notLinked.issues
  rw [n1]
  convert exactly_rangeFilter (n := m.nbUniqueVertices) (p := fun uv => m.componentMeshVertices uv = [])

end links

/-- The value of a task, or an empty result. -/
def valueOr {α : Type} (default : α) (e : Except Failure α) : α :=
  match e with
  | .ok x => x
  | .error _ => default

/-- What `parallel_invoke` gives after the `catch`: the failure which is not caught, if any. -/
def uncaught (choose : List Failure → Failure) (failures : List Failure) : Option Failure :=
  match thrownBy choose failures with
  | none => none
  | some .openGeodeException => none
  | some f => some f

/-- The failure of an inspection. -/
def failureOf {α : Type} (e : Except Failure α) : List Failure :=
  match e with
  | .ok _ => []
  | .error f => [f]

theorem exactly_nil {P : Index → Prop} {l : List Index} (h : Exactly (· < ·) P l) (hl : l = []) (v : Index) : ¬ P v := by
  subst hl
  exact fun hp => absurd ((h.2 v).2 hp) (by simp)

theorem exactly_nil_of {P : Index → Prop} {l : List Index} (h : Exactly (· < ·) P l) (hp : ∀ v, ¬ P v) : l = [] :=
  List.eq_nil_iff_forall_not_mem.2 fun v hv => hp v ((h.2 v).1 hv)

theorem mem_activeComponents {m : TopologyModel} {kind : ComponentType} {c : TopologyComponent} :
    c ∈ (m.components kind).filter (fun c => c.active) ↔ c ∈ m.components kind ∧ c.active = true := by
  rw [List.mem_filter]

theorem filterMap_nil_of {l : List TopologyComponent} {p : TopologyComponent → Bool} (h : ∀ x ∈ l, p x = false) :
    (l.filter p).map TopologyComponent.id = [] := by
  rw [List.map_eq_nil_iff, List.filter_eq_nil_iff]
  intro x hx
  rw [h x hx]; simp

theorem mapReports_nil {map : IssuesMap Index} {comps : List TopologyComponent} {P : TopologyComponent → Index → Prop}
    (h : MapReports map comps TopologyComponent.id (fun c l => Exactly (· < ·) (P c) l)) (hm : map.entries = [])
    (c : TopologyComponent) (hc : c ∈ comps) (v : Index) : ¬ P c v := by
  obtain ⟨l, hl, _, h2⟩ := h.2 c hc
  by_cases he : l = []
  · exact exactly_nil hl he v
  · obtain ⟨s, hs, _⟩ := h2 he
    rw [hm] at hs
    exact absurd hs (by simp)

theorem mapReports_nil_of {map : IssuesMap Index} {comps : List TopologyComponent}
    {P : TopologyComponent → Index → Prop}
    (h : MapReports map comps TopologyComponent.id (fun c l => Exactly (· < ·) (P c) l))
    (hp : ∀ c ∈ comps, ∀ v, ¬ P c v) : map.entries = [] := by
  rw [List.eq_nil_iff_forall_not_mem]
  rintro ⟨id, s⟩ he
  have hid := h.1.subset (List.mem_map_of_mem (f := Prod.fst) he)
  obtain ⟨c, hc, rfl⟩ := List.mem_map.1 hid
  obtain ⟨l, hl, h1, _⟩ := h.2 c hc
  exact h1 (exactly_nil_of hl (hp c hc)) s he

theorem resultOrEmpty {α : Type} {e : Except Failure α} {x empty : α} (h : x = valueOr empty e) :
    ResultOrEmpty e empty x := by
  subst h
  constructor
  · rintro y rfl; rfl
  · rintro f rfl; rfl

theorem mem_failureOf {α : Type} {e : Except Failure α} {f : Failure} : f ∈ failureOf e ↔ e = .error f := by
  cases e with
  | ok x => simp [failureOf]
  | error g => simp [failureOf, eq_comm]

theorem uncaught_none {choose : List Failure → Failure} (hch : ∀ failures ≠ [], choose failures ∈ failures)
    {failures : List Failure} (h : ∀ f ∈ failures, f = .openGeodeException) : uncaught choose failures = none := by
  have h1 : ¬ failures.contains .undefinedBehaviour := by
    rw [List.contains_iff_mem]
    intro hm; exact absurd (h _ hm) (by decide)
  have h2 : ¬ failures.contains .outOfFuel := by
    rw [List.contains_iff_mem]
    intro hm; exact absurd (h _ hm) (by decide)
  unfold uncaught thrownBy
  rw [if_neg h1, if_neg h2]
  cases failures with
  | nil => rfl
  | cons f l =>
    rw [if_neg (by simp), h _ (hch (f :: l) (by simp))]

theorem sectionInvoke (choose : List Failure → Failure) (schedule : List Nat)
    (c : Except Failure SectionCornersTopologyInspectionResult) (l : Except Failure SectionLinesTopologyInspectionResult)
    (s : Except Failure SectionSurfacesTopologyInspectionResult) :
    invokeAndCatch choose schedule (sectionTopologyTasks c l s) {} =
      match uncaught choose (failureOf c ++ failureOf l ++ failureOf s) with
      | none => .ok { corners := valueOr {} c, lines := valueOr {} l, surfaces := valueOr {} s }
      | some f => .error f := by
  unfold invokeAndCatch parallelInvoke
  rw [runTasks_eq schedule _ _ (by unfold sectionTopologyTasks; independent_assigns)]
  have hr : ((sectionTopologyTasks c l s).map Task.writes).flatten.foldl (fun s write => write s) {} =
      { corners := valueOr {} c, lines := valueOr {} l, surfaces := valueOr {} s } := by
    cases c <;> cases l <;> cases s <;> rfl
  have hf : (sectionTopologyTasks c l s).filterMap Task.failure = failureOf c ++ failureOf l ++ failureOf s := by
    cases c <;> cases l <;> cases s <;> rfl
  rw [hr, hf]
  unfold uncaught
  cases thrownBy choose (failureOf c ++ failureOf l ++ failureOf s) with
  | none => rfl
  | some f => cases f <;> rfl

theorem brepInvoke (choose : List Failure → Failure) (schedule : List Nat)
    (c : Except Failure BRepCornersTopologyInspectionResult) (l : Except Failure BRepLinesTopologyInspectionResult)
    (s : Except Failure BRepSurfacesTopologyInspectionResult) (b : Except Failure BRepBlocksTopologyInspectionResult) :
    invokeAndCatch choose schedule (brepTopologyTasks c l s b) {} =
      match uncaught choose (failureOf c ++ failureOf l ++ failureOf s ++ failureOf b) with
      | none => .ok { corners := valueOr {} c, lines := valueOr {} l, surfaces := valueOr {} s, blocks := valueOr {} b }
      | some f => .error f := by
  unfold invokeAndCatch parallelInvoke
  rw [runTasks_eq schedule _ _ (by unfold brepTopologyTasks; independent_assigns)]
  have hr : ((brepTopologyTasks c l s b).map Task.writes).flatten.foldl (fun s write => write s) {} =
      { corners := valueOr {} c, lines := valueOr {} l, surfaces := valueOr {} s, blocks := valueOr {} b } := by
    cases c <;> cases l <;> cases s <;> cases b <;> rfl
  have hf : (brepTopologyTasks c l s b).filterMap Task.failure =
      failureOf c ++ failureOf l ++ failureOf s ++ failureOf b := by
    cases c <;> cases l <;> cases s <;> cases b <;> rfl
  rw [hr, hf]
  unfold uncaught
  cases thrownBy choose (failureOf c ++ failureOf l ++ failureOf s ++ failureOf b) with
  | none => rfl
  | some f => cases f <;> rfl

/-! ### Validity -/

section valid
variable {m : TopologyModel}

theorem wf_of_linked (h : RelationsWellFormed m) {kinds : List ComponentType} (hb : BijectivelyLinked m kinds) :
    WellFormed m where
  ids := h.ids
  vertices v hv cmv hc := by
    obtain ⟨⟨_, c, hm, hid, _⟩, _⟩ := (hb v hv).2 cmv hc
    exact ⟨c, hm, hid⟩
  embeddings := h.embeddings
  incidences := h.incidences
  boundaries := h.boundaries

theorem notLinked_any {kind : ComponentType} {meshed : TopologyComponent → Bool}
    (hm : ∀ c, meshed c = true ↔ Meshed kind c) :
    loopAny (fun c => meshed c && !verticesAreAssociated m kind c) (m.activeComponents kind) = false ↔
      ∀ c ∈ m.components kind, c.active = true → Meshed kind c →
        ∀ v < c.nbVertices, m.uniqueVertex ⟨⟨kind, c.id⟩, v⟩ ≠ none := by
  rw [← Bool.not_eq_true, loopAny_iff]
  have hv : ∀ c, verticesAreAssociated m kind c = true ↔
      ∀ v < c.nbVertices, m.uniqueVertex ⟨⟨kind, c.id⟩, v⟩ ≠ none := by
    intro c
    unfold verticesAreAssociated
    rw [Bool.not_eq_true', ← Bool.not_eq_true, loopAny_iff]
    simp
  constructor
  · intro h c hc ha hmc
    rw [← hv]
    by_contra hn
    refine h ⟨c, List.mem_filter.2 ⟨hc, ha⟩, ?_⟩
    rw [(hm c).2 hmc]
    simpa using hn
  · rintro h ⟨c, hc, hb⟩
    obtain ⟨hc, ha⟩ := List.mem_filter.1 hc
    rw [Bool.and_eq_true, hm] at hb
    rw [(hv c).2 (h c hc ha hb.1)] at hb
    exact absurd hb.2 (by simp)

theorem sectionMeshed_iff : sectionMeshedComponentsAreLinked m = true ↔ MeshedComponentsAreLinked m sectionKinds := by
  have h1 := notLinked_any (m := m) (kind := .corner) (meshed := cornerIsMeshed) (by
    intro c; simp [cornerIsMeshed, Meshed])
  have h2 := notLinked_any (m := m) (kind := .line) (meshed := lineIsMeshed) (by
    intro c; simp [lineIsMeshed, Meshed])
  have h3 := notLinked_any (m := m) (kind := .surface) (meshed := surfaceIsMeshed) (by
    intro c; simp [surfaceIsMeshed, Meshed])
  unfold sectionMeshedComponentsAreLinked MeshedComponentsAreLinked
  simp only [sectionKinds, List.forall_mem_cons, List.not_mem_nil, false_implies, implies_true, and_true]
  rw [← h1, ← h2, ← h3]
  split_ifs <;> simp_all

theorem brepMeshed_iff : brepMeshedComponentsAreLinked m = true ↔ MeshedComponentsAreLinked m brepKinds := by
  have h1 := notLinked_any (m := m) (kind := .corner) (meshed := cornerIsMeshed) (by
    intro c; simp [cornerIsMeshed, Meshed])
  have h2 := notLinked_any (m := m) (kind := .line) (meshed := lineIsMeshed) (by
    intro c; simp [lineIsMeshed, Meshed])
  have h3 := notLinked_any (m := m) (kind := .surface) (meshed := surfaceIsMeshed) (by
    intro c; simp [surfaceIsMeshed, Meshed])
  have h4 := notLinked_any (m := m) (kind := .block)
    (meshed := fun block => block.nbVertices != 0 && block.nbElements != 0) (by
    intro c; simp [Meshed])
  unfold brepMeshedComponentsAreLinked MeshedComponentsAreLinked
  simp only [brepKinds, List.forall_mem_cons, List.not_mem_nil, false_implies, implies_true, and_true]
  rw [← h1, ← h2, ← h3, ← h4]
  split_ifs <;> simp_all

theorem decides_or {e : Except Failure Bool} {k : Except Failure Bool} {P Q : Prop} (he : Decides e P)
    (hk : ∃ b, k = .ok b ∧ (b = false ↔ Q)) :
    ∃ b, (e >>= fun b => if (!b) = true then pure true else k) = .ok b ∧ (b = false ↔ P ∧ Q) := by
  obtain ⟨b, rfl, hp⟩ := he
  obtain ⟨c, rfl, hq⟩ := hk
  cases b with
  | false => exact ⟨true, rfl, by simp at hp; simp [hp]⟩
  | true => exact ⟨c, rfl, by simp at hp; rw [hq]; simp [hp]⟩

theorem decides_not {e : Except Failure Bool} {P : Prop} (he : Decides e P) :
    ∃ b, (e >>= fun b => pure (!b)) = .ok b ∧ (b = false ↔ P) := by
  obtain ⟨b, rfl, hp⟩ := he
  exact ⟨!b, rfl, by simpa using hp⟩

theorem valid_decides {valid : Bool} {bij : Except Failure Bool} {invalid : Index → Except Failure Bool} {L B : Prop}
    {V : Index → Prop} (hl : valid = true ↔ L) (hb : Decides bij B)
    (hv : L → B → ∀ v < m.nbUniqueVertices, ∃ b, invalid v = .ok b ∧ (b = false ↔ V v)) :
    Decides (do
      if m.nbUniqueVertices == 0 then return false
      if !valid then return false
      if !(← bij) then return false
      return !(← loopAnyM invalid (List.range m.nbUniqueVertices)))
      (0 < m.nbUniqueVertices ∧ L ∧ B ∧ ∀ v < m.nbUniqueVertices, V v) := by
  by_cases h0 : m.nbUniqueVertices = 0
  · exact ⟨false, by simp [h0]; rfl, by simp [h0]⟩
  · rw [if_neg (by simpa using h0)]
    by_cases h1 : valid = true
    · rw [if_neg (by simp [h1])]
      obtain ⟨b, rfl, hp⟩ := hb
      cases b with
      | false => exact ⟨false, rfl, by simp at hp; simp [hp]⟩
      | true =>
        have hB := hp.1 rfl
        obtain ⟨c, hc, hq⟩ := loopAnyM_decides invalid (List.range m.nbUniqueVertices) V
          (fun v hm => hv (hl.1 h1) hB v (List.mem_range.1 hm))
        refine ⟨!c, ?_, ?_⟩
        · simp only [bind, Except.bind, hc]
          rfl
        · simp only [Bool.not_eq_true', hq, List.mem_range]
          exact ⟨fun h => ⟨Nat.pos_of_ne_zero h0, hl.1 h1, hB, h⟩, fun h => h.2.2.2⟩
    · rw [if_pos (by simp [h1])]
      exact ⟨false, rfl, by rw [← hl]; simp [h1]⟩

theorem section_valid_decides (h : RelationsWellFormed m)
    (hs : ∀ id, Active m .line id → ∀ e ∈ m.embeddings id, e.type = .surface) :
    Decides (sectionTopologyIsValid m) (SectionValid m) := by
  refine valid_decides sectionMeshed_iff (sectionBijective_decides h.unique) ?_
  intro _ hB v hv
  have wf := wf_of_linked h hB
  have key := decides_or (sectionCorner_decides wf hv) (decides_or (sectionLines_decides wf hs hv)
    (decides_not (sectionSurfaces_decides wf hv)))
  obtain ⟨b, hb, hp⟩ := key
  refine ⟨b, hb, hp.trans ?_⟩
  constructor
  · rintro ⟨h1, h2, h3⟩
    refine ⟨h1, ?_, h3⟩
    by_cases ha : ∃ id, ActiveAt m v .line id
    · obtain ⟨a, b, c, d, _⟩ := h2 ha
      exact ⟨a, b, c, d⟩
    · refine ⟨fun ⟨l, hl, _⟩ => ha ⟨l, hl⟩, fun hx => ?_, fun ⟨l, hl, _⟩ => ha ⟨l, hl⟩,
        fun hx => ha (twiceActive_active hx.1)⟩
      obtain ⟨l, hl, _⟩ := embeddedBefore_imp hx
      exact ha ⟨l, hl⟩
  · rintro ⟨h1, h2, h3⟩
    exact ⟨h1, fun _ => ⟨h2.1, h2.2.1, h2.2.2.1, h2.2.2.2, trivial⟩, h3⟩

/-- A loop fails exactly where its condition fails first, if it was false before. -/
theorem loopAnyM_error_iff {α : Type} (cond : α → Except Failure Bool) (l : List α) (f : Failure) :
    loopAnyM cond l = .error f ↔
      ∃ pre x post, l = pre ++ x :: post ∧ cond x = .error f ∧ ∀ y ∈ pre, cond y = .ok false := by
  induction l with
  | nil =>
    simp only [loopAnyM, reduceCtorEq, false_iff]
    rintro ⟨pre, x, post, h, _⟩
    cases pre <;> cases h
  | cons y l ih =>
    rw [loopAnyM]
    have hskip : ∀ {o}, cond y = o → o ≠ .ok false →
        ((∃ pre x post, y :: l = pre ++ x :: post ∧ cond x = .error f ∧ ∀ z ∈ pre, cond z = .ok false) ↔
          o = .error f) := by
      intro o ho hne
      constructor
      · rintro ⟨pre, x, post, h, hx, hp⟩
        cases pre with
        | nil => cases h; rw [← ho, hx]
        | cons z pre => cases h; rw [hp y (by simp)] at ho; exact absurd ho.symm hne
      · intro h
        exact ⟨[], y, l, rfl, by rw [ho, h], fun _ h => by cases h⟩
    cases hy : cond y with
    | error e =>
      rw [hskip hy (by simp)]
    | ok b =>
      cases b with
      | true => rw [hskip hy (by simp)]
      | false =>
        simp only [ih]
        constructor
        · rintro ⟨pre, x, post, rfl, hx, hp⟩
          refine ⟨y :: pre, x, post, rfl, hx, ?_⟩
          intro z hz
          rcases List.mem_cons.1 hz with rfl | hz
          · exact hy
          · exact hp z hz
        · rintro ⟨pre, x, post, h, hx, hp⟩
          cases pre with
          | nil => cases h; rw [hy] at hx; cases hx
          | cons z pre =>
            cases h
            exact ⟨pre, x, post, rfl, hx, fun w hw => hp w (by simp [hw])⟩

/-- A loop which answers true found an element, and one which answers false found none. -/
theorem loopAnyM_if {α : Type} (cond : α → Except Failure Bool) (l : List α) (P : α → Prop)
    (h : ∀ x ∈ l, ∀ b, cond x = .ok b → (b = false ↔ P x)) (b : Bool) (hl : loopAnyM cond l = .ok b) :
    b = false ↔ ∀ x ∈ l, P x := by
  induction l with
  | nil => cases hl; simp
  | cons y l ih =>
    rw [loopAnyM] at hl
    cases hy : cond y with
    | error e => rw [hy] at hl; cases hl
    | ok c =>
      have hp := h y (by simp) c hy
      rw [hy] at hl
      cases c with
      | true =>
        cases hl
        simp only [Bool.true_eq_false, false_iff] at hp ⊢
        exact fun ha => hp (ha y (by simp))
      | false =>
        rw [ih (fun x hx => h x (by simp [hx])) hl, List.forall_mem_cons]
        exact ⟨fun ha => ⟨hp.1 rfl, ha⟩, fun ha => ha.2⟩

section vertex
variable (h : RelationsWellFormed m) (aw : AroundWellFormed m)
  (hb : ∀ s, Active m .surface s → ∀ e ∈ m.embeddings s, e.type = .block)
  (hcount : ∀ v < m.nbUniqueVertices, ∀ b, At m v .block b → CountsFit m v b)
  (hL : MeshedComponentsAreLinked m brepKinds) (hB : BijectivelyLinked m brepKinds)

include h aw hb hcount hL hB in
/-- A vertex without unreadable embedding. -/
theorem brepVertex_readable {v : Index} (hv : v < m.nbUniqueVertices) (hr : ¬ UnreadableEmbedding m v) :
    ∃ b, brepVertexIsInvalid m v = .ok b ∧ (b = false ↔ BRepVertexValid m v) := by
  have wf := wf_of_linked h hB
  have a1 := brepEmbeddedLine_answers_of_readable wf hv hr
  have a2 := brepLineWrong_answers wf hv aw (by
    intro c hc ha _ hn x hx
    have hx' := aw.edgeVertices c hc 0 (Nat.pos_of_ne_zero hn) x hx
    exact hL .line (by simp [brepKinds]) c hc ha ⟨Nat.ne_of_gt (Nat.lt_of_le_of_lt (Nat.zero_le _) hx'), fun _ => hn⟩ x hx')
  have key := decides_or (brepCorner_decides wf hv) (decides_or
    (brepLines_decides_self wf hv ⟨⟨_, a1.eq⟩, ⟨_, a2.eq⟩, ⟨_, (brepSingleLine_answers wf hv).eq⟩,
      ⟨_, (brepLinesButNotCorner_answers wf hv).eq⟩⟩)
    (decides_or (brepSurfaces_decides wf hb hv) (decides_not (brepBlocks_decides wf hv (hcount v hv)))))
  obtain ⟨b, hb, hp⟩ := key
  refine ⟨b, hb, hp.trans ?_⟩
  rw [← Bool.not_eq_true, ← Bool.not_eq_true, ← Bool.not_eq_true, ← Bool.not_eq_true, a1.iff, a2.iff,
    (brepSingleLine_answers wf hv).iff, (brepLinesButNotCorner_answers wf hv).iff]
  constructor
  · rintro ⟨h1, ⟨x1, x2, x3, x4⟩, h3, h4⟩
    exact ⟨h1, ⟨x1, x3, x2, x4⟩, h3, h4⟩
  · rintro ⟨h1, ⟨x1, x3, x2, x4⟩, h3, h4⟩
    exact ⟨h1, ⟨x1, x2, x3, x4⟩, h3, h4⟩

include h aw hb hcount hL hB in
/-- The exceptions at a vertex: its corners are right and it has an unreadable embedding. -/
theorem brepVertex_error {v : Index} (hv : v < m.nbUniqueVertices) (f : Failure) :
    brepVertexIsInvalid m v = .error f ↔
      f = .openGeodeException ∧ BRepCornerValid m v ∧ UnreadableEmbedding m v := by
  have wf := wf_of_linked h hB
  by_cases hr : UnreadableEmbedding m v
  · obtain ⟨b, hc, hp⟩ := brepCorner_decides wf hv
    unfold brepVertexIsInvalid
    rw [hc, brepLines_unreadable wf hv hr]
    cases b with
    | false =>
      have hp' : ¬ BRepCornerValid m v := fun hx => Bool.false_ne_true (hp.2 hx)
      refine iff_of_false (fun he => ?_) (fun hx => hp' hx.2.1)
      cases he
    | true =>
      have hp' : BRepCornerValid m v := hp.1 rfl
      constructor
      · intro he
        exact ⟨(Except.error.inj he).symm, hp', hr⟩
      · rintro ⟨rfl, _⟩
        rfl
  · obtain ⟨b, hb, _⟩ := brepVertex_readable h aw hb hcount hL hB hv hr
    rw [hb]
    simp only [reduceCtorEq, false_iff]
    exact fun hx => hr hx.2.2

include h aw hb hcount hL hB in
theorem brepVertex_if {v : Index} (hv : v < m.nbUniqueVertices) (b : Bool)
    (hi : brepVertexIsInvalid m v = .ok b) : b = false ↔ BRepVertexValid m v := by
  by_cases hr : UnreadableEmbedding m v
  · have wf := wf_of_linked h hB
    obtain ⟨c, hc, hp⟩ := brepCorner_decides wf hv
    have hnv : ¬ BRepVertexValid m v := fun hx => hx.lines.1 (unreadable_wrong hr)
    unfold brepVertexIsInvalid at hi
    rw [hc, brepLines_unreadable wf hv hr] at hi
    cases c with
    | false => cases hi; simpa using hnv
    | true => cases hi
  · obtain ⟨c, hc, hp⟩ := brepVertex_readable h aw hb hcount hL hB hv hr
    rw [hi] at hc
    rw [Except.ok.inj hc]
    exact hp

end vertex

/-- The boolean on the topology of a BRep is exact when it answers. -/
theorem brep_valid_if (h : RelationsWellFormed m) (aw : AroundWellFormed m)
    (hb : ∀ s, Active m .surface s → ∀ e ∈ m.embeddings s, e.type = .block)
    (hcount : ∀ v < m.nbUniqueVertices, ∀ b, At m v .block b → CountsFit m v b) (b : Bool)
    (hv : brepTopologyIsValid m = .ok b) : b = true ↔ BRepValid m := by
  unfold brepTopologyIsValid at hv
  obtain ⟨c, hc, hp⟩ := brepBijective_decides h.unique
  have hm := brepMeshed_iff (m := m)
  rw [hc] at hv
  by_cases h0 : m.nbUniqueVertices = 0
  · rw [if_pos (by simpa using h0)] at hv
    cases hv
    simp [BRepValid, h0]
  rw [if_neg (by simpa using h0)] at hv
  by_cases h1 : brepMeshedComponentsAreLinked m = true
  swap
  · rw [if_pos (by simpa using h1)] at hv
    cases hv
    simp only [Bool.false_eq_true, false_iff]
    exact fun hx => h1 (hm.2 hx.2.1)
  rw [if_neg (by simp [h1])] at hv
  cases c with
  | false =>
    cases hv
    simp only [Bool.false_eq_true, false_iff] at hp ⊢
    exact fun hx => hp hx.2.2.1
  | true =>
    have hB := hp.1 rfl
    have hL := hm.1 h1
    cases hl : loopAnyM (brepVertexIsInvalid m) (List.range m.nbUniqueVertices) with
    | error f => rw [hl] at hv; cases hv
    | ok c =>
      rw [hl] at hv
      have hcb : (!c) = b := Except.ok.inj hv
      have := loopAnyM_if _ _ (BRepVertexValid m)
        (fun v hv => brepVertex_if h aw hb hcount hL hB (List.mem_range.1 hv)) c hl
      rw [← hcb, Bool.not_eq_true', this]
      simp only [List.mem_range]
      exact ⟨fun ha => ⟨Nat.pos_of_ne_zero h0, hL, hB, ha⟩, fun ha => ha.2.2.2⟩

/-- The exceptions of the boolean on the topology of a BRep. -/
theorem brep_valid_error (h : RelationsWellFormed m) (aw : AroundWellFormed m)
    (hb : ∀ s, Active m .surface s → ∀ e ∈ m.embeddings s, e.type = .block)
    (hcount : ∀ v < m.nbUniqueVertices, ∀ b, At m v .block b → CountsFit m v b) (f : Failure) :
    brepTopologyIsValid m = .error f ↔ f = .openGeodeException ∧ MeshedComponentsAreLinked m brepKinds ∧
      BijectivelyLinked m brepKinds ∧ ∃ v < m.nbUniqueVertices, (∀ w < v, BRepVertexValid m w) ∧
        BRepCornerValid m v ∧ UnreadableEmbedding m v := by
  unfold brepTopologyIsValid
  obtain ⟨c, hc, hp⟩ := brepBijective_decides h.unique
  have hm := brepMeshed_iff (m := m)
  rw [hc]
  by_cases h0 : m.nbUniqueVertices = 0
  · rw [if_pos (by simpa using h0)]
    refine iff_of_false (fun hx => by cases hx) ?_
    rintro ⟨_, _, _, v, hv, _⟩
    omega
  rw [if_neg (by simpa using h0)]
  by_cases h1 : brepMeshedComponentsAreLinked m = true
  swap
  · rw [if_pos (by simpa using h1)]
    exact iff_of_false (fun hx => by cases hx) (fun hx => h1 (hm.2 hx.2.1))
  rw [if_neg (by simp [h1])]
  cases c with
  | false =>
    refine iff_of_false (fun hx => by cases hx) (fun hx => ?_)
    exact Bool.false_ne_true (hp.2 hx.2.2.1)
  | true =>
    have hB := hp.1 rfl
    have hL := hm.1 h1
    have hloop := loopAnyM_error_iff (brepVertexIsInvalid m) (List.range m.nbUniqueVertices) f
    have hto : ((do
        if (!true) = true then return false
        return !(← loopAnyM (brepVertexIsInvalid m) (List.range m.nbUniqueVertices)) : Except Failure Bool) =
        .error f) ↔ loopAnyM (brepVertexIsInvalid m) (List.range m.nbUniqueVertices) = .error f := by
      cases loopAnyM (brepVertexIsInvalid m) (List.range m.nbUniqueVertices) with
      | error f' => exact ⟨fun hx => by rw [Except.error.inj hx], fun hx => by rw [Except.error.inj hx]; rfl⟩
      | ok b => exact iff_of_false (fun hx => by cases hx) (fun hx => by cases hx)
    refine hto.trans (hloop.trans ?_)
    constructor
    · rintro ⟨pre, v, post, hl, he, hpre⟩
      have hv : v < m.nbUniqueVertices := List.mem_range.1 (by rw [hl]; simp)
      obtain ⟨e1, e2, e3⟩ := (brepVertex_error h aw hb hcount hL hB hv f).1 he
      refine ⟨e1, hL, hB, v, hv, fun w hw => ?_, e2, e3⟩
      have hwm : w ∈ pre := by
        have hwr : w ∈ pre ++ v :: post := by rw [← hl]; exact List.mem_range.2 (Nat.lt_trans hw hv)
        rcases List.mem_append.1 hwr with h | h
        · exact h
        · exfalso
          have hpw : (pre ++ v :: post).Pairwise (· < ·) := by rw [← hl]; exact List.pairwise_lt_range
          rcases List.mem_cons.1 h with h | h
          · exact absurd hw (by rw [h]; exact Nat.lt_irrefl v)
          · exact absurd hw (Nat.not_lt.2 (Nat.le_of_lt (List.rel_of_pairwise_cons (List.pairwise_append.1 hpw).2.1 h)))
      exact (brepVertex_if h aw hb hcount hL hB (Nat.lt_trans hw hv) false (hpre w hwm)).1 rfl
    · rintro ⟨rfl, _, _, v, hv, hw, hc, hu⟩
      obtain ⟨k, hk⟩ : ∃ k, m.nbUniqueVertices = v + (k + 1) := ⟨m.nbUniqueVertices - v - 1, by omega⟩
      refine ⟨List.range v, v, (List.range k).map (fun x => v + (x + 1)), ?_, ?_, ?_⟩
      · rw [hk, List.range_add, List.range_succ_eq_map]
        simp
      · exact (brepVertex_error h aw hb hcount hL hB hv _).2 ⟨rfl, hc, hu⟩
      · intro w hwm
        have hwv := List.mem_range.1 hwm
        have hwn : w < m.nbUniqueVertices := Nat.lt_trans hwv hv
        have hval := hw w hwv
        obtain ⟨b, hb', hp'⟩ := brepVertex_readable h aw hb hcount hL hB hwn
          (fun hr => hval.lines.1 (unreadable_wrong hr))
        rw [hb', hp'.2 hval]

theorem brep_valid_decides (h : RelationsWellFormed m) (aw : AroundWellFormed m)
    (hs : ¬ LinesUnreadable m)
    (hb : ∀ s, Active m .surface s → ∀ e ∈ m.embeddings s, e.type = .block)
    (hcount : ∀ v < m.nbUniqueVertices, ∀ b, At m v .block b → CountsFit m v b) :
    Decides (brepTopologyIsValid m) (BRepValid m) :=
  valid_decides brepMeshed_iff (brepBijective_decides h.unique) (fun hL hB v hv =>
    brepVertex_readable h aw hb hcount hL hB hv (fun hr => hs ⟨v, hv, hr⟩))

end valid

end Inspector
