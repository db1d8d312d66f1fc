import Verif.Spec.Ids
import Verif.Proofs.Stored
/-
Proofs for C131: the defects of a model do not depend on the uuids of its components.
-/
namespace Inspector.Ids
open Inspector Spec

/-- A component of the topology with another uuid. -/
def componentOf (ρ : Equiv.Perm Uuid) (c : TopologyComponent) : TopologyComponent := { c with id := ρ c.id }

/-- The same topology, with other uuids. -/
structure Renamed (ρ : Equiv.Perm Uuid) (t t' : TopologyModel) : Prop where
  components : ∀ kind, t'.components kind = (t.components kind).map (componentOf ρ)
  nbUniqueVertices : t'.nbUniqueVertices = t.nbUniqueVertices
  cmvs : ∀ v, t'.componentMeshVertices v = (t.componentMeshVertices v).map (cmvOf ρ)
  uniqueVertex : ∀ kind id v, t'.uniqueVertex ⟨⟨kind, ρ id⟩, v⟩ = t.uniqueVertex ⟨⟨kind, id⟩, v⟩
  isBoundary : ∀ a b, t'.isBoundary (ρ a) (ρ b) = t.isBoundary a b
  isInternal : ∀ a b, t'.isInternal (ρ a) (ρ b) = t.isInternal a b
  embeddings : ∀ id, t'.embeddings (ρ id) = (t.embeddings id).map (idOf ρ)
  incidences : ∀ id, t'.incidences (ρ id) = (t.incidences id).map (idOf ρ)
  boundaries : ∀ id, t'.boundaries (ρ id) = (t.boundaries id).map (idOf ρ)
  isVertexOnBorder : ∀ id v, t'.isVertexOnBorder (ρ id) v = t.isVertexOnBorder id v
  surfaceEdges : ∀ id e, t'.surfaceEdges (ρ id) e = keysOf ρ (t.surfaceEdges id e)
  blockEdges : ∀ id e, t'.blockEdges (ρ id) e = keysOf ρ (t.blockEdges id e)
  blockPolygons : ∀ id f, t'.blockPolygons (ρ id) f = keysOf ρ (t.blockPolygons id f)
  polygonVertices : ∀ id f, t'.polygonVertices (ρ id) f = t.polygonVertices id f

theorem id_id (ρ : Equiv.Perm Uuid) (c : ComponentID) : idOf ρ.symm (idOf ρ c) = c := by
  obtain ⟨k, i⟩ := c; simp [idOf]

theorem cmv_cmv (ρ : Equiv.Perm Uuid) (c : ComponentMeshVertex) : cmvOf ρ.symm (cmvOf ρ c) = c := by
  obtain ⟨c, i⟩ := c; simp [cmvOf, id_id]

theorem keys_keys (ρ : Equiv.Perm Uuid) (h : HMap Uuid Nat) : keysOf ρ.symm (keysOf ρ h) = h := by
  unfold keysOf
  rw [List.map_map]
  conv_rhs => rw [← List.map_id h]
  exact List.map_congr_left fun e _ => by simp

theorem component_component (ρ : Equiv.Perm Uuid) (c : TopologyComponent) : componentOf ρ.symm (componentOf ρ c) = c := by
  obtain ⟨i, a, v, e⟩ := c; simp [componentOf]

theorem Renamed.symm {ρ : Equiv.Perm Uuid} {t t' : TopologyModel} (s : Renamed ρ t t') : Renamed ρ.symm t' t where
  components kind := by rw [s.components, List.map_map]; simp [Function.comp_def, component_component]
  nbUniqueVertices := s.nbUniqueVertices.symm
  cmvs v := by rw [s.cmvs, List.map_map]; simp [Function.comp_def, cmv_cmv]
  uniqueVertex kind id v := by
    obtain ⟨id, rfl⟩ := ρ.surjective id; rw [s.uniqueVertex, Equiv.symm_apply_apply]
  isBoundary a b := by
    obtain ⟨a, rfl⟩ := ρ.surjective a; obtain ⟨b, rfl⟩ := ρ.surjective b
    rw [s.isBoundary, Equiv.symm_apply_apply, Equiv.symm_apply_apply]
  isInternal a b := by
    obtain ⟨a, rfl⟩ := ρ.surjective a; obtain ⟨b, rfl⟩ := ρ.surjective b
    rw [s.isInternal, Equiv.symm_apply_apply, Equiv.symm_apply_apply]
  embeddings id := by
    obtain ⟨id, rfl⟩ := ρ.surjective id
    rw [s.embeddings, Equiv.symm_apply_apply, List.map_map]; simp [Function.comp_def, id_id]
  incidences id := by
    obtain ⟨id, rfl⟩ := ρ.surjective id
    rw [s.incidences, Equiv.symm_apply_apply, List.map_map]; simp [Function.comp_def, id_id]
  boundaries id := by
    obtain ⟨id, rfl⟩ := ρ.surjective id
    rw [s.boundaries, Equiv.symm_apply_apply, List.map_map]; simp [Function.comp_def, id_id]
  isVertexOnBorder id v := by
    obtain ⟨id, rfl⟩ := ρ.surjective id; rw [s.isVertexOnBorder, Equiv.symm_apply_apply]
  surfaceEdges id e := by
    obtain ⟨id, rfl⟩ := ρ.surjective id; rw [s.surfaceEdges, Equiv.symm_apply_apply, keys_keys]
  blockEdges id e := by
    obtain ⟨id, rfl⟩ := ρ.surjective id; rw [s.blockEdges, Equiv.symm_apply_apply, keys_keys]
  blockPolygons id e := by
    obtain ⟨id, rfl⟩ := ρ.surjective id; rw [s.blockPolygons, Equiv.symm_apply_apply, keys_keys]
  polygonVertices id e := by
    obtain ⟨id, rfl⟩ := ρ.surjective id; rw [s.polygonVertices, Equiv.symm_apply_apply]

/-! ### what is read of a model -/

section
variable {ρ : Equiv.Perm Uuid} {t t' : TopologyModel} (s : Renamed ρ t t')
include s

omit s in
theorem ex (q : Uuid → Prop) : (∃ id, q id) ↔ ∃ id, q (ρ id) := ρ.surjective.exists

omit s in
theorem all (q : Uuid → Prop) : (∀ id, q id) ↔ ∀ id, q (ρ id) := ρ.surjective.forall

theorem ex_component (kind : ComponentType) (q : TopologyComponent → Prop) :
    (∃ c ∈ t'.components kind, q c) ↔ ∃ c ∈ t.components kind, q (componentOf ρ c) := by
  rw [s.components]; simp

theorem all_component (kind : ComponentType) (q : TopologyComponent → Prop) :
    (∀ c ∈ t'.components kind, q c) ↔ ∀ c ∈ t.components kind, q (componentOf ρ c) := by
  rw [s.components]; simp

theorem ex_cmv (v : Index) (q : ComponentMeshVertex → Prop) :
    (∃ c ∈ t'.componentMeshVertices v, q c) ↔ ∃ c ∈ t.componentMeshVertices v, q (cmvOf ρ c) := by
  rw [s.cmvs]; simp

theorem all_cmv (v : Index) (q : ComponentMeshVertex → Prop) :
    (∀ c ∈ t'.componentMeshVertices v, q c) ↔ ∀ c ∈ t.componentMeshVertices v, q (cmvOf ρ c) := by
  rw [s.cmvs]; simp

theorem active (kind : ComponentType) (id : Uuid) : Active t' kind (ρ id) ↔ Active t kind id := by
  unfold Active; rw [ex_component s]; simp [componentOf]

theorem has (kind : ComponentType) (id : Uuid) : Has t' kind (ρ id) ↔ Has t kind id := by
  unfold Has; rw [ex_component s]; simp [componentOf]

theorem at_ (v : Index) (kind : ComponentType) (id : Uuid) : At t' v kind (ρ id) ↔ At t v kind id := by
  unfold At; rw [ex_cmv s]
  refine exists_congr fun c => and_congr_right fun _ => ?_
  obtain ⟨⟨k, i⟩, n⟩ := c
  simp [cmvOf, idOf]

theorem activeAt (v : Index) (kind : ComponentType) (id : Uuid) : ActiveAt t' v kind (ρ id) ↔ ActiveAt t v kind id := by
  unfold ActiveAt; rw [at_ s, active s]

theorem allMeshed (kind : ComponentType) : AllMeshed t' kind ↔ AllMeshed t kind := by
  unfold AllMeshed; rw [all_component s]; rfl

theorem activeCmv (kind : ComponentType) (c : ComponentMeshVertex) :
    ActiveCmv t' kind (cmvOf ρ c) ↔ ActiveCmv t kind c := by
  unfold ActiveCmv
  show _ ∧ Active t' kind (ρ _) ↔ _
  rw [active s]; rfl

theorem notAssociated (kind : ComponentType) (c : TopologyComponent) (v : Index) :
    NotAssociated t' kind (componentOf ρ c) v ↔ NotAssociated t kind c v := by
  unfold NotAssociated
  show _ ∧ t'.uniqueVertex ⟨⟨kind, ρ _⟩, v⟩ = _ ↔ _
  rw [s.uniqueVertex]; rfl

theorem mem_embeddings (id : Uuid) (kind : ComponentType) (x : Uuid) :
    (⟨kind, ρ x⟩ ∈ t'.embeddings (ρ id)) ↔ ⟨kind, x⟩ ∈ t.embeddings id := by
  rw [s.embeddings]
  exact List.mem_map_of_injective (f := idOf ρ) (a := ⟨kind, x⟩) (Function.LeftInverse.injective (id_id ρ))

theorem mem_incidences (id : Uuid) (kind : ComponentType) (x : Uuid) :
    (⟨kind, ρ x⟩ ∈ t'.incidences (ρ id)) ↔ ⟨kind, x⟩ ∈ t.incidences id := by
  rw [s.incidences]
  exact List.mem_map_of_injective (f := idOf ρ) (a := ⟨kind, x⟩) (Function.LeftInverse.injective (id_id ρ))

theorem mem_boundaries (id : Uuid) (kind : ComponentType) (x : Uuid) :
    (⟨kind, ρ x⟩ ∈ t'.boundaries (ρ id)) ↔ ⟨kind, x⟩ ∈ t.boundaries id := by
  rw [s.boundaries]
  exact List.mem_map_of_injective (f := idOf ρ) (a := ⟨kind, x⟩) (Function.LeftInverse.injective (id_id ρ))

theorem ex_embedding (id : Uuid) (q : ComponentID → Prop) :
    (∃ c ∈ t'.embeddings (ρ id), q c) ↔ ∃ c ∈ t.embeddings id, q (idOf ρ c) := by
  rw [s.embeddings]; simp

theorem all_embedding (id : Uuid) (q : ComponentID → Prop) :
    (∀ c ∈ t'.embeddings (ρ id), q c) ↔ ∀ c ∈ t.embeddings id, q (idOf ρ c) := by
  rw [s.embeddings]; simp

theorem all_incidence (id : Uuid) (q : ComponentID → Prop) :
    (∀ c ∈ t'.incidences (ρ id), q c) ↔ ∀ c ∈ t.incidences id, q (idOf ρ c) := by
  rw [s.incidences]; simp

theorem embeddings_nil (id : Uuid) : t'.embeddings (ρ id) = [] ↔ t.embeddings id = [] := by
  rw [s.embeddings]; simp

theorem incidences_nil (id : Uuid) : t'.incidences (ρ id) = [] ↔ t.incidences id = [] := by
  rw [s.incidences]; simp

theorem embeddings_length (id : Uuid) : (t'.embeddings (ρ id)).length = (t.embeddings id).length := by
  rw [s.embeddings]; simp

omit s in
theorem mem_keys (h : HMap Uuid Nat) (x : Uuid) (n : Nat) : ((ρ x, n) ∈ keysOf ρ h) ↔ (x, n) ∈ h := by
  simp [keysOf]

omit s in
theorem find_keys (h : HMap Uuid Nat) (x : Uuid) : HMap.find? (keysOf ρ h) (ρ x) = HMap.find? h x := by
  unfold HMap.find? keysOf
  induction h with
  | nil => rfl
  | cons e h ih =>
    obtain ⟨k, n⟩ := e
    simp only [List.map_cons, List.lookup]
    have : (ρ x == ρ k) = (x == k) := by rw [Bool.eq_iff_iff, beq_iff_eq, beq_iff_eq, ρ.injective.eq_iff]
    rw [this, ih]

/-! quantifiers -/

theorem ex_at (v : Index) (k : ComponentType) (q : Uuid → Prop) :
    (∃ id, At t' v k id ∧ q id) ↔ ∃ id, At t v k id ∧ q (ρ id) := by
  rw [ex (ρ := ρ)]; simp only [at_ s]

theorem ex_activeAt (v : Index) (k : ComponentType) (q : Uuid → Prop) :
    (∃ id, ActiveAt t' v k id ∧ q id) ↔ ∃ id, ActiveAt t v k id ∧ q (ρ id) := by
  rw [ex (ρ := ρ)]; simp only [activeAt s]

theorem ex_at' (v : Index) (k : ComponentType) : (∃ id, At t' v k id) ↔ ∃ id, At t v k id := by
  rw [ex (ρ := ρ)]; simp only [at_ s]

theorem ex_activeAt' (v : Index) (k : ComponentType) : (∃ id, ActiveAt t' v k id) ↔ ∃ id, ActiveAt t v k id := by
  rw [ex (ρ := ρ)]; simp only [activeAt s]

theorem all_at (v : Index) (k : ComponentType) (q : Uuid → Prop) :
    (∀ id, At t' v k id → q id) ↔ ∀ id, At t v k id → q (ρ id) := by
  rw [all (ρ := ρ)]; simp only [at_ s]

theorem all_not_at (v : Index) (k : ComponentType) : (∀ id, ¬ At t' v k id) ↔ ∀ id, ¬ At t v k id := by
  rw [all (ρ := ρ)]; simp only [at_ s]

theorem ex_mem_embeddings (id : Uuid) (k : ComponentType) (q : Uuid → Prop) :
    (∃ x, ⟨k, x⟩ ∈ t'.embeddings (ρ id) ∧ q x) ↔ ∃ x, ⟨k, x⟩ ∈ t.embeddings id ∧ q (ρ x) := by
  rw [ex (ρ := ρ)]; simp only [mem_embeddings s]

theorem ex_mem_embeddings' (id : Uuid) (k : ComponentType) :
    (∃ x, ⟨k, x⟩ ∈ t'.embeddings (ρ id)) ↔ ∃ x, ⟨k, x⟩ ∈ t.embeddings id := by
  rw [ex (ρ := ρ)]; simp only [mem_embeddings s]

theorem all_mem_embeddings (id : Uuid) (k : ComponentType) :
    (∀ x, ⟨k, x⟩ ∉ t'.embeddings (ρ id)) ↔ ∀ x, ⟨k, x⟩ ∉ t.embeddings id := by
  rw [all (ρ := ρ)]; simp only [mem_embeddings s]

theorem ex_mem_incidences (id : Uuid) (k : ComponentType) (q : Uuid → Prop) :
    (∃ x, ⟨k, x⟩ ∈ t'.incidences (ρ id) ∧ q x) ↔ ∃ x, ⟨k, x⟩ ∈ t.incidences id ∧ q (ρ x) := by
  rw [ex (ρ := ρ)]; simp only [mem_incidences s]

theorem ex_mem_boundaries (id : Uuid) (k : ComponentType) (q : Uuid → Prop) :
    (∃ x, ⟨k, x⟩ ∈ t'.boundaries (ρ id) ∧ q x) ↔ ∃ x, ⟨k, x⟩ ∈ t.boundaries id ∧ q (ρ x) := by
  rw [ex (ρ := ρ)]; simp only [mem_boundaries s]

theorem two_at (v : Index) (k : ComponentType) :
    (∃ a b, a ≠ b ∧ At t' v k a ∧ At t' v k b) ↔ ∃ a b, a ≠ b ∧ At t v k a ∧ At t v k b := by
  rw [ex (ρ := ρ)]
  refine exists_congr fun a => ?_
  rw [ex (ρ := ρ)]
  simp only [at_ s, ne_eq, ρ.injective.eq_iff]

theorem two_activeAt (v : Index) (k : ComponentType) :
    (∃ a b, a ≠ b ∧ ActiveAt t' v k a ∧ ActiveAt t' v k b) ↔ ∃ a b, a ≠ b ∧ ActiveAt t v k a ∧ ActiveAt t v k b := by
  rw [ex (ρ := ρ)]
  refine exists_congr fun a => ?_
  rw [ex (ρ := ρ)]
  simp only [activeAt s, ne_eq, ρ.injective.eq_iff]

theorem three_at (v : Index) (k : ComponentType) :
    (∃ a b c, a ≠ b ∧ a ≠ c ∧ b ≠ c ∧ At t' v k a ∧ At t' v k b ∧ At t' v k c) ↔
      ∃ a b c, a ≠ b ∧ a ≠ c ∧ b ≠ c ∧ At t v k a ∧ At t v k b ∧ At t v k c := by
  rw [ex (ρ := ρ)]
  refine exists_congr fun a => ?_
  rw [ex (ρ := ρ)]
  refine exists_congr fun b => ?_
  rw [ex (ρ := ρ)]
  simp only [at_ s, ne_eq, ρ.injective.eq_iff]

/-! ### Sections -/

theorem twiceActive (v : Index) (k : ComponentType) : TwiceActive t' v k ↔ TwiceActive t v k := by
  have imp : ∀ (ρ : Equiv.Perm Uuid) (t t' : TopologyModel), Renamed ρ t t' → TwiceActive t v k → TwiceActive t' v k := by
    rintro ρ t t' s ⟨a, b, h, h1, h2, h3, h4⟩
    refine ⟨cmvOf ρ a, cmvOf ρ b, ?_, h1, (active s _ _).2 h2, h3, (active s _ _).2 h4⟩
    rw [s.cmvs]
    exact h.map (cmvOf ρ)
  exact ⟨imp _ _ _ s.symm, imp _ _ _ s⟩

theorem cmvExists (kinds : List ComponentType) (c : ComponentMeshVertex) :
    CmvExists t' kinds (cmvOf ρ c) ↔ CmvExists t kinds c := by
  unfold CmvExists
  rw [ex_component s]
  simp [componentOf, cmvOf, idOf]

theorem bijectivelyLinked (kinds : List ComponentType) : BijectivelyLinked t' kinds ↔ BijectivelyLinked t kinds := by
  unfold BijectivelyLinked
  rw [s.nbUniqueVertices]
  refine forall_congr' fun uv => imp_congr_right fun _ => and_congr ?_ ?_
  · rw [s.cmvs]; simp
  · rw [all_cmv s]
    refine forall_congr' fun c => imp_congr_right fun _ => and_congr (cmvExists s _ _) ?_
    show (Active t' _ (ρ _) → t'.uniqueVertex ⟨⟨_, ρ _⟩, _⟩ = _) ↔ _
    rw [active s, s.uniqueVertex]
    exact Iff.rfl

theorem unmeshed (kinds : List ComponentType) : HasUnmeshedComponent t' kinds ↔ HasUnmeshedComponent t kinds := by
  unfold HasUnmeshedComponent
  simp only [ex_component s]
  exact Iff.rfl

theorem unlinked (kinds : List ComponentType) : HasUnlinkedVertex t' kinds ↔ HasUnlinkedVertex t kinds := by
  unfold HasUnlinkedVertex
  simp only [ex_component s, notAssociated s]
  exact Iff.rfl

theorem no_cmv (v : Index) (id : Uuid) : (∀ cmv ∈ t'.componentMeshVertices v, cmv.component_id.id ≠ ρ id) ↔
    ∀ cmv ∈ t.componentMeshVertices v, cmv.component_id.id ≠ id := by
  rw [all_cmv s]
  refine forall_congr' fun c => imp_congr_right fun _ => ?_
  show ρ _ ≠ ρ _ ↔ _
  rw [ne_eq, ρ.injective.eq_iff]

theorem embeddedLineIsWrong (v : Index) (line : Uuid) :
    EmbeddedLineIsWrong t' v (ρ line) ↔ EmbeddedLineIsWrong t v line := by
  unfold EmbeddedLineIsWrong
  rw [embeddings_length s, ne_eq, incidences_nil s, allMeshed s, ex_embedding s]
  refine or_congr_right (or_congr_right (and_congr_right fun _ => exists_congr fun e => and_congr_right fun _ => ?_))
  show Active t' .surface (ρ _) ∧ (∀ cmv ∈ t'.componentMeshVertices v, cmv.component_id.id ≠ ρ _) ↔ _
  rw [active s, no_cmv s]

theorem embeddedBefore (v : Index) : EmbeddedBefore t' v (t'.componentMeshVertices v) ↔
    EmbeddedBefore t v (t.componentMeshVertices v) := by
  have imp : ∀ (ρ : Equiv.Perm Uuid) (t t' : TopologyModel), Renamed ρ t t' →
      EmbeddedBefore t v (t.componentMeshVertices v) → EmbeddedBefore t' v (t'.componentMeshVertices v) := by
    rintro ρ t t' s ⟨pre, c, post, h, h1, h2, h3, h4⟩
    refine ⟨pre.map (cmvOf ρ), cmvOf ρ c, post.map (cmvOf ρ), ?_, (activeCmv s _ _).2 h1, ?_,
      (embeddedLineIsWrong s _ _).2 h3, ?_⟩
    · rw [s.cmvs, h]; simp
    · exact fun e => h2 ((embeddings_nil s _).1 e)
    · intro x hx ha
      obtain ⟨x, hx', rfl⟩ := List.mem_map.1 hx
      exact fun e => h4 x hx' ((activeCmv s _ _).1 ha) ((embeddings_nil s _).1 e)
  exact ⟨imp _ _ _ s.symm, imp _ _ _ s⟩

theorem cornerSeveral (v : Index) : CornerWithSeveralEmbeddings t' v ↔ CornerWithSeveralEmbeddings t v := by
  unfold CornerWithSeveralEmbeddings; simp only [ex_activeAt s, embeddings_length s]

theorem cornerAlone (v : Index) : CornerAlone t' v ↔ CornerAlone t v := by
  unfold CornerAlone; simp only [ex_activeAt s, embeddings_nil s, incidences_nil s]

theorem cornerNotBoundary (v : Index) : CornerNotBoundaryOfLine t' v ↔ CornerNotBoundaryOfLine t v := by
  unfold CornerNotBoundaryOfLine
  simp only [ex_activeAt s, ex_at s, s.isBoundary, exists_and_left]

theorem lineAlone (v : Index) : LineAlone t' v ↔ LineAlone t v := by
  unfold LineAlone; simp only [ex_activeAt s, embeddings_nil s, incidences_nil s]

theorem invalidSingleLine (v : Index) : InvalidSingleLine t' v ↔ InvalidSingleLine t v := by
  unfold InvalidSingleLine
  simp only [ex_activeAt s, all_at s, ρ.injective.eq_iff, three_at s, embeddings_nil s, ex_at s, allMeshed s, s.isInternal,
    s.isBoundary, ne_eq]

theorem linesWithoutCorner (v : Index) : LinesWithoutCorner t' v ↔ LinesWithoutCorner t v := by
  unfold LinesWithoutCorner; rw [twiceActive s, ex_at' s]

theorem twoSurfaces (v : Index) : TwoSurfacesWithoutLine t' v ↔ TwoSurfacesWithoutLine t v := by
  unfold TwoSurfacesWithoutLine
  rw [ex (ρ := ρ)]
  refine exists_congr fun a => ?_
  rw [ex (ρ := ρ)]
  simp only [ne_eq, at_ s, all_at s, ex_at s, s.isBoundary, ρ.injective.eq_iff]

theorem lineNotOnBorder (v : Index) : LineNotOnBorder t' v ↔ LineNotOnBorder t v := by
  unfold LineNotOnBorder
  rw [allMeshed s, ex_activeAt' s, ex_cmv s]
  simp only [activeCmv s]
  refine and_congr_right fun _ => and_congr_right fun _ => exists_congr fun c => and_congr_right fun _ =>
    and_congr_right fun _ => ?_
  show t'.isVertexOnBorder (ρ _) _ = _ ↔ _
  rw [s.isVertexOnBorder]
  exact Iff.rfl

theorem sectionVertex (v : Index) : SectionVertexDefect t' v ↔ SectionVertexDefect t v := by
  unfold SectionVertexDefect
  simp only [twiceActive s, cornerSeveral s, cornerAlone s, cornerNotBoundary s, lineAlone s, embeddedBefore s,
    invalidSingleLine s, linesWithoutCorner s, twoSurfaces s, lineNotOnBorder s, ex_activeAt' s]

theorem sectionTopology : SectionTopologyDefect t' ↔ SectionTopologyDefect t := by
  unfold SectionTopologyDefect
  simp only [s.nbUniqueVertices, sectionVertex s, bijectivelyLinked s, unmeshed s, unlinked s]

/-! ### BReps -/

theorem cornerMultiply (v : Index) : CornerMultiplyEmbedded t' v ↔ CornerMultiplyEmbedded t v := by
  unfold CornerMultiplyEmbedded
  simp only [ex_activeAt s, embeddings_length s, ex_mem_embeddings s, active s]

theorem cmvs_of (v : Index) (id : Uuid) :
    ((t'.componentMeshVertices v).filter fun cmv => cmv.component_id.id == ρ id).length =
      ((t.componentMeshVertices v).filter fun cmv => cmv.component_id.id == id).length := by
  rw [s.cmvs, List.filter_map, List.length_map]
  congr 2
  funext c
  show (ρ _ == ρ _) = _
  rw [Bool.eq_iff_iff, beq_iff_eq, beq_iff_eq, ρ.injective.eq_iff]

theorem cornerNotOnLine (v : Index) : CornerNotOnLine t' v ↔ CornerNotOnLine t v := by
  unfold CornerNotOnLine
  rw [ex (ρ := ρ)]
  refine exists_congr fun a => ?_
  rw [ex (ρ := ρ)]
  simp only [activeAt s, s.isBoundary, s.isInternal, cmvs_of s]

theorem embeddingWrong (v : Index) (line : Uuid) (e : ComponentID) :
    EmbeddingWrong t' v (ρ line) (idOf ρ e) ↔ EmbeddingWrong t v line e := by
  unfold EmbeddingWrong
  show t'.isBoundary (ρ line) (ρ _) = true ∨ ((_ → AllMeshed t' .block) ∧ ¬ At t' v _ (ρ _)) ↔ _
  rw [s.isBoundary, allMeshed s, at_ s]
  exact Iff.rfl

theorem brepInvalidEmbedded (v : Index) : BRepInvalidEmbeddedLine t' v ↔ BRepInvalidEmbeddedLine t v := by
  show (∃ line, ActiveAt t' v .line line ∧ ∃ e ∈ t'.embeddings line, EmbeddingWrong t' v line e) ↔
    ∃ line, ActiveAt t v .line line ∧ ∃ e ∈ t.embeddings line, EmbeddingWrong t v line e
  simp only [ex_activeAt s, ex_embedding s, embeddingWrong s]

theorem brepInvalidSingle (v : Index) : BRepInvalidSingleLine t' v ↔ BRepInvalidSingleLine t v := by
  unfold BRepInvalidSingleLine
  have h2 : ∀ line, (∃ x y, x ≠ y ∧ At t' v .surface x ∧ At t' v .surface y ∧ t'.isBoundary (ρ line) x = false ∧
      t'.isInternal (ρ line) x = false) ↔ ∃ x y, x ≠ y ∧ At t v .surface x ∧ At t v .surface y ∧
      t.isBoundary line x = false ∧ t.isInternal line x = false := by
    intro line
    rw [ex (ρ := ρ)]
    refine exists_congr fun a => ?_
    rw [ex (ρ := ρ)]
    simp only [at_ s, ne_eq, ρ.injective.eq_iff, s.isBoundary, s.isInternal]
  simp only [ex_activeAt s, all_at s, ρ.injective.eq_iff, embeddings_nil s, incidences_nil s, ex_at s, allMeshed s,
    s.isInternal, s.isBoundary, ne_eq, ex_mem_embeddings' s, all_not_at s] at h2 ⊢
  simp only [h2]

theorem firstEdge (line : Uuid) : FirstEdgeIsWrong t' (ρ line) ↔ FirstEdgeIsWrong t line := by
  unfold FirstEdgeIsWrong
  simp only [s.surfaceEdges, incidences_nil s, ex_mem_incidences s, ex_mem_embeddings s, all_mem_embeddings s, active s,
    find_keys]
  refine or_congr_right (or_congr_right (and_congr_right fun _ => and_congr_right fun _ => ?_))
  rw [ex (ρ := ρ)]
  simp only [mem_keys, active s]

theorem brepLineWrong (v : Index) : BRepLineWrong t' v ↔ BRepLineWrong t v := by
  unfold BRepLineWrong
  simp only [ex_activeAt s, ex_component s, firstEdge s]
  simp only [componentOf, ρ.injective.eq_iff]

theorem invalidEmbeddedSurface (v : Index) : InvalidEmbeddedSurface t' v ↔ InvalidEmbeddedSurface t v := by
  unfold InvalidEmbeddedSurface
  simp only [ex_activeAt s, ex_embedding s, allMeshed s]
  simp only [idOf, active s, s.isBoundary, no_cmv s]

theorem surfacesAt_eq (v : Index) : surfacesAt t' v = (surfacesAt t v).map ρ.toEmbedding := by
  unfold surfacesAt
  rw [s.cmvs, List.filter_map, List.map_map]
  ext x
  simp only [List.mem_toFinset, Finset.mem_map, List.mem_map, List.mem_filter, Function.comp, Equiv.coe_toEmbedding]
  constructor
  · rintro ⟨c, ⟨h1, h2⟩, rfl⟩
    exact ⟨c.component_id.id, ⟨c, ⟨h1, h2⟩, rfl⟩, rfl⟩
  · rintro ⟨_, ⟨c, ⟨h1, h2⟩, rfl⟩, rfl⟩
    exact ⟨c, ⟨h1, h2⟩, rfl⟩

theorem lineCmvs (v : Index) (line : Uuid) :
    (((t'.componentMeshVertices v).filter fun cmv => decide (cmv.component_id.type = .line)).map
        ComponentMeshVertex.component_id = [⟨.line, ρ line⟩]) ↔
    (((t.componentMeshVertices v).filter fun cmv => decide (cmv.component_id.type = .line)).map
        ComponentMeshVertex.component_id = [⟨.line, line⟩]) := by
  rw [s.cmvs, List.filter_map, List.map_map]
  rw [show ComponentMeshVertex.component_id ∘ cmvOf ρ = idOf ρ ∘ ComponentMeshVertex.component_id from rfl, ← List.map_map]
  rw [show [(⟨.line, ρ line⟩ : ComponentID)] = [(⟨.line, line⟩ : ComponentID)].map (idOf ρ) from rfl]
  exact (List.map_injective_iff.2 (Function.LeftInverse.injective (id_id ρ))).eq_iff

theorem surfacesAt_related (v : Index) (line : Uuid) :
    ((surfacesAt t' v).filter fun x => t'.isBoundary (ρ line) x = true ∨ t'.isInternal (ρ line) x = true).card =
      ((surfacesAt t v).filter fun x => t.isBoundary line x = true ∨ t.isInternal line x = true).card := by
  rw [surfacesAt_eq s, Finset.filter_map, Finset.card_map]
  congr 2
  funext x
  simp only [Function.comp, Equiv.coe_toEmbedding, s.isBoundary, s.isInternal]

theorem surfacesAt_card (v : Index) : (surfacesAt t' v).card = (surfacesAt t v).card := by
  rw [surfacesAt_eq s, Finset.card_map]

theorem invalidMultiple (v : Index) : InvalidMultipleSurfaces t' v ↔ InvalidMultipleSurfaces t v := by
  unfold InvalidMultipleSurfaces
  rw [two_activeAt s]
  refine and_congr_right fun _ => or_congr ?_ ?_
  · rw [all_not_at s, all_not_at s]
    refine and_congr_right fun _ => or_congr_right ?_
    rw [ex (ρ := ρ)]
    refine exists_congr fun a => ?_
    rw [ex (ρ := ρ)]
    simp only [at_ s, activeAt s, s.isInternal]
  · rw [ex (ρ := ρ)]
    refine exists_congr fun a => ?_
    rw [ex (ρ := ρ)]
    simp only [at_ s, lineCmvs s, surfacesAt_related s, surfacesAt_card s, embeddings_length s]

theorem relatedLine (v : Index) : RelatedLineNotOnBorder t' v ↔ RelatedLineNotOnBorder t v := by
  unfold RelatedLineNotOnBorder
  simp only [ex_cmv s, ex_activeAt s]
  simp only [cmvOf, idOf, s.isBoundary, s.isInternal, s.isVertexOnBorder]

theorem brepVertex (v : Index) : BRepVertexDefect t' v ↔ BRepVertexDefect t v := by
  unfold BRepVertexDefect
  simp only [twiceActive s, cornerMultiply s, cornerAlone s, cornerNotOnLine s, brepInvalidEmbedded s, brepLineWrong s,
    brepInvalidSingle s, linesWithoutCorner s, invalidEmbeddedSurface s, invalidMultiple s, relatedLine s]

theorem ex_key (h : HMap Uuid Nat) (q : Uuid → Nat → Prop) :
    (∃ x n, (x, n) ∈ keysOf ρ h ∧ q x n) ↔ ∃ x n, (x, n) ∈ h ∧ q (ρ x) n := by
  rw [ex (ρ := ρ)]; simp only [mem_keys]

theorem edgeWrong (line : Uuid) (e : Index) : EdgeIsWrong t' (ρ line) e ↔ EdgeIsWrong t line e := by
  unfold EdgeIsWrong
  rw [s.surfaceEdges, s.blockEdges, ex_key s, ex_key s, ex_component s]
  refine or_congr ?_ (or_congr ?_ (or_congr ?_ ?_))
  · simp only [active s, s.isBoundary, s.isInternal]
  · rw [ex (ρ := ρ)]
    simp only [mem_embeddings s, mem_incidences s, active s, mem_keys]
  · simp only [active s, s.isInternal]
  · simp only [componentOf, mem_embeddings s, mem_keys]

theorem facetWrong (surface : Uuid) (f : Index) : FacetIsWrong t' (ρ surface) f ↔ FacetIsWrong t surface f := by
  unfold FacetIsWrong
  rw [s.blockPolygons, ex_key s]
  simp only [active s, s.isBoundary, s.isInternal]

theorem unreadableEmbedding (v : Index) : UnreadableEmbedding t' v ↔ UnreadableEmbedding t v := by
  have imp : ∀ (ρ : Equiv.Perm Uuid) (t t' : TopologyModel), Renamed ρ t t' →
      UnreadableEmbedding t v → UnreadableEmbedding t' v := by
    rintro ρ t t' s ⟨pre, c, post, h, h1, h2, pre', e, post', h3, h4, h5, h6⟩
    refine ⟨pre.map (cmvOf ρ), cmvOf ρ c, post.map (cmvOf ρ), ?_, (activeCmv s _ _).2 h1, ?_, pre'.map (idOf ρ), idOf ρ e,
      post'.map (idOf ρ), ?_, fun x => h4 ((has s _ _).1 x), (embeddingWrong s _ _ _).2 h5, ?_⟩
    · rw [s.cmvs, h]; simp
    · intro x hx ha y hy
      obtain ⟨x, hx', rfl⟩ := List.mem_map.1 hx
      change y ∈ t'.embeddings (ρ x.component_id.id) at hy
      rw [s.embeddings] at hy
      obtain ⟨y, hy', rfl⟩ := List.mem_map.1 hy
      exact fun w => h2 x hx' ((activeCmv s _ _).1 ha) y hy' ((embeddingWrong s _ _ _).1 w)
    · show t'.embeddings (ρ _) = _
      rw [s.embeddings, h3]; simp
    · intro y hy
      obtain ⟨y, hy', rfl⟩ := List.mem_map.1 hy
      exact fun w => h6 y hy' ((embeddingWrong s _ _ _).1 w)
  exact ⟨imp _ _ _ s.symm, imp _ _ _ s⟩

theorem unreadable : LinesUnreadable t' ↔ LinesUnreadable t := by
  unfold LinesUnreadable
  simp only [s.nbUniqueVertices, unreadableEmbedding s]

/-! ### Blocks -/

theorem cannotBound (x : Uuid) : CannotBound t' (ρ x) ↔ CannotBound t x := by
  have imp : ∀ (ρ : Equiv.Perm Uuid) (t t' : TopologyModel) (x : Uuid), Renamed ρ t t' →
      (∃ G, Closable t G ∧ G x) → ∃ G, Closable t' G ∧ G (ρ x) := by
    rintro ρ t t' x s ⟨G, hG, hx⟩
    refine ⟨fun y => G (ρ.symm y), ?_, by simpa using hx⟩
    intro y hy line hl
    obtain ⟨y, rfl⟩ := ρ.surjective y
    obtain ⟨line, rfl⟩ := ρ.surjective line
    rw [mem_boundaries s] at hl
    rw [Equiv.symm_apply_apply] at hy
    obtain ⟨z, hz, hne, hb⟩ := hG y hy line hl
    exact ⟨ρ z, by show G (ρ.symm (ρ z)); rwa [Equiv.symm_apply_apply], fun e => hne (ρ.injective e), (mem_boundaries s _ _ _).2 hb⟩
  unfold CannotBound
  refine not_congr ⟨fun h => ?_, imp _ _ _ _ s⟩
  have := imp _ _ _ _ s.symm h
  rwa [Equiv.symm_apply_apply] at this

theorem related_eq (l : List ComponentID) (k : ComponentType) :
    t'.related (l.map (idOf ρ)) k = (t.related l k).map ρ := by
  unfold TopologyModel.related
  rw [List.filter_map, List.map_map, List.map_map]
  rfl

theorem boundarySurfaces_eq (b : Uuid) : boundarySurfaces t' (ρ b) = (boundarySurfaces t b).map ρ := by
  unfold boundarySurfaces
  rw [s.boundaries, List.filter_map, List.map_map, List.map_map]
  rfl

theorem sheets (b line : Uuid) : boundarySheets t' (ρ b) (ρ line) = boundarySheets t b line := by
  unfold boundarySheets
  rw [boundarySurfaces_eq s, List.filter_map, List.filter_map, List.length_map, List.length_map]
  simp only [Function.comp_def, s.isBoundary, s.isInternal]

theorem cmvsOf_eq (v : Index) (kind : ComponentType) : cmvsOf t' v kind = (cmvsOf t v kind).map (cmvOf ρ) := by
  unfold cmvsOf
  rw [s.cmvs, List.filter_map]
  rfl

theorem linesAt_eq (v : Index) : linesAt t' v = (linesAt t v).map ρ := by
  unfold linesAt
  rw [cmvsOf_eq s, List.map_map, List.filter_map, List.filter_map, List.map_map]
  simp only [Function.comp_def, cmvOf, idOf]
  congr 1
  refine List.filter_congr fun c _ => ?_
  rw [decide_eq_decide, all_embedding s]
  exact Iff.rfl

theorem lineInside (b line : Uuid) : LineInside t' (ρ b) (ρ line) ↔ LineInside t b line := by
  unfold LineInside
  simp only [ex_embedding s, all_embedding s, all_incidence s]
  simp only [idOf, s.isInternal]

theorem countIsRight (v : Index) (b : Uuid) : CountIsRight t' v (ρ b) ↔ CountIsRight t v b := by
  have h1 : nbBlockCmvs t' v (ρ b) = nbBlockCmvs t v b := by
    unfold nbBlockCmvs
    rw [cmvsOf_eq s, List.filter_map, List.length_map]
    simp only [Function.comp_def, cmvOf, idOf, ρ.injective.eq_iff]
  have h2 : nbBoundarySurfaceCmvs t' v (ρ b) = nbBoundarySurfaceCmvs t v b := by
    unfold nbBoundarySurfaceCmvs
    rw [cmvsOf_eq s, List.filter_map, List.length_map]
    simp only [Function.comp_def, cmvOf, idOf, s.isBoundary]
  have h3 : nbInternalSurfaceCmvs t' v (ρ b) = nbInternalSurfaceCmvs t v b := by
    unfold nbInternalSurfaceCmvs
    rw [cmvsOf_eq s, List.filter_map, List.length_map]
    simp only [Function.comp_def, cmvOf, idOf, s.isBoundary, s.isInternal]
  have h4 : nbLinesInside t' v (ρ b) = nbLinesInside t v b := by
    unfold nbLinesInside
    rw [linesAt_eq s, List.filter_map, List.length_map]
    simp only [Function.comp_def, sheets s, lineInside s]
  have h5 : nbLinePassages t' v (ρ b) = nbLinePassages t v b := by
    unfold nbLinePassages
    rw [linesAt_eq s, List.map_map]
    simp only [Function.comp_def, sheets s]
  have h6 : nbSeveralPassages t' v (ρ b) = nbSeveralPassages t v b := by
    unfold nbSeveralPassages
    rw [linesAt_eq s, List.filter_map, List.length_map]
    simp only [Function.comp_def, sheets s]
  have h7 : nbAdditionalPassages t' v (ρ b) = nbAdditionalPassages t v b := by
    unfold nbAdditionalPassages
    rw [linesAt_eq s, List.map_map]
    simp only [Function.comp_def, sheets s]
  have h8 : (cmvsOf t' v .corner).length = (cmvsOf t v .corner).length := by
    rw [cmvsOf_eq s, List.length_map]
  unfold CountIsRight expectedCount
  rw [h1, h2, h3, h4, h5, h6, h7, h8]

theorem openBoundary (b : Uuid) : HasOpenBoundary t' (ρ b) ↔ HasOpenBoundary t b := by
  unfold HasOpenBoundary
  simp only [ex_mem_boundaries s, active s, ex_mem_incidences s, ne_eq, ρ.injective.eq_iff, s.isBoundary]

theorem sharesLine (a b : Uuid) : SharesLine t' (ρ a) (ρ b) ↔ SharesLine t a b := by
  unfold SharesLine
  simp only [ex_mem_boundaries s, mem_boundaries s]

theorem allLinked (Q : List Uuid) : AllLinked t' (Q.map ρ) ↔ AllLinked t Q := by
  have imp : ∀ (ρ : Equiv.Perm Uuid) (t t' : TopologyModel) (Q : List Uuid), Renamed ρ t t' →
      AllLinked t Q → AllLinked t' (Q.map ρ) := by
    intro ρ t t' Q s h a ha b hb
    obtain ⟨a, ha', rfl⟩ := List.mem_map.1 ha
    obtain ⟨b, hb', rfl⟩ := List.mem_map.1 hb
    have := h a ha' b hb'
    unfold LinkedIn at this ⊢
    clear hb hb'
    induction this with
    | refl => exact Relation.ReflTransGen.refl
    | tail _ h ih => exact ih.tail ⟨(sharesLine s _ _).2 h.1, List.mem_map_of_mem h.2⟩
  refine ⟨fun h => ?_, imp _ _ _ _ s⟩
  have := imp _ _ _ _ s.symm h
  rwa [List.map_map, Equiv.symm_comp_self, List.map_id] at this

theorem twoBlocks (v : Index) : TwoBlocksWithoutSurface t' v ↔ TwoBlocksWithoutSurface t v := by
  unfold TwoBlocksWithoutSurface
  rw [ex (ρ := ρ)]
  refine exists_congr fun a => ?_
  rw [ex (ρ := ρ)]
  refine exists_congr fun b => ?_
  have : (∃ x line, At t' v .surface x ∧ At t' v .line line ∧ t'.isBoundary line x = true ∧
      (t'.isBoundary x (ρ a) = true ∨ t'.isBoundary x (ρ b) = true)) ↔
      ∃ x line, At t v .surface x ∧ At t v .line line ∧ t.isBoundary line x = true ∧
      (t.isBoundary x a = true ∨ t.isBoundary x b = true) := by
    rw [ex (ρ := ρ)]
    refine exists_congr fun x => ?_
    rw [ex (ρ := ρ)]
    simp only [at_ s, s.isBoundary]
  rw [this]
  simp only [ne_eq, activeAt s, all_at s, ex_at s, s.isBoundary, ρ.injective.eq_iff]

theorem blockCountWrong (v : Index) : BlockCountWrong t' v ↔ BlockCountWrong t v := by
  unfold BlockCountWrong
  simp only [ex_activeAt s, countIsRight s]

theorem singleInvalid (v : Index) : SingleInvalidSurface t' v ↔ SingleInvalidSurface t v := by
  unfold SingleInvalidSurface
  simp only [ex_activeAt s, all_at s, ρ.injective.eq_iff, cannotBound s, three_at s, embeddings_nil s, ex_at s, allMeshed s,
    s.isInternal, s.isBoundary, ne_eq]

theorem relatedSurface (v : Index) (x : Uuid) : RelatedSurface t' v (ρ x) ↔ RelatedSurface t v x := by
  unfold RelatedSurface
  rw [at_ s, ne_eq, ne_eq, incidences_nil s, embeddings_nil s]

theorem multipleInvalid (v : Index) : MultipleInvalidSurfaces t' v ↔ MultipleInvalidSurfaces t v := by
  unfold MultipleInvalidSurfaces
  rw [two_at s]
  refine and_congr_right fun _ => and_congr ?_ ?_
  · rw [ex (ρ := ρ)]
    refine exists_congr fun a => ?_
    rw [ex (ρ := ρ)]
    simp only [relatedSurface s, ne_eq, ρ.injective.eq_iff]
  · rw [ex_at s]
    refine exists_congr fun line => and_congr_right fun _ => and_congr (embeddings_nil s _) (and_congr ?_ (and_congr ?_ ?_))
    · rw [all (ρ := ρ)]
      simp only [relatedSurface s, s.isBoundary, s.isInternal]
    · rw [ex (ρ := ρ)]
      simp only [relatedSurface s, s.isBoundary, ne_eq, embeddings_nil s]
    · refine not_congr ?_
      rw [ex (ρ := ρ)]
      refine exists_congr fun a => ?_
      rw [ex (ρ := ρ)]
      simp only [relatedSurface s, s.isBoundary, ne_eq, ρ.injective.eq_iff]

theorem surfaceWrong (v : Index) (o : BlocksOracle) :
    SurfaceWrongForBlocks t' v (oracleOf ρ o).isInsideBlock ↔ SurfaceWrongForBlocks t v o.isInsideBlock := by
  unfold SurfaceWrongForBlocks OutsideBlocks
  simp only [ex_activeAt s, ne_eq, incidences_nil s, embeddings_nil s, cannotBound s, ex_component s, all_component s]
  simp only [componentOf, oracleOf, Equiv.symm_apply_apply, ρ.injective.eq_iff]

/-! ### parts of a boundary -/

omit s in
theorem contains_map (l : List Uuid) (x : Uuid) : (l.map ρ).contains (ρ x) = l.contains x := by
  rw [Bool.eq_iff_iff, List.contains_iff_mem, List.contains_iff_mem, List.mem_map_of_injective ρ.injective]

theorem linked_eq (x : Uuid) (processed : List Uuid) :
    findLinkedProcessedSurface t' (ρ x) (processed.map ρ) = findLinkedProcessedSurface t x processed := by
  unfold findLinkedProcessedSurface
  simp only [loopAny_eq_any]
  rw [s.boundaries, related_eq s, List.any_map]
  congr 1
  funext line
  simp only [Function.comp]
  rw [s.incidences, related_eq s, List.any_map]
  congr 1
  funext y
  exact contains_map _ _

/-- Both lists with other uuids. -/
def bothOf (ρ : Equiv.Perm Uuid) (x : List Uuid × List Uuid) : List Uuid × List Uuid := (x.1.map ρ, x.2.map ρ)

theorem loop_eq (fuel : Nat) : ∀ (processed Q : List Uuid) (skip : Nat),
    closedLinkedLoop t' fuel (processed.map ρ) (Q.map ρ) skip = (closedLinkedLoop t fuel processed Q skip).map (bothOf ρ) := by
  induction fuel with
  | zero => exact fun _ _ _ => rfl
  | succ fuel ih =>
    intro processed Q skip
    cases Q with
    | nil => rfl
    | cons x Q =>
      rw [List.map_cons]
      unfold closedLinkedLoop
      rw [contains_map, linked_eq s]
      simp only [List.length_cons, List.length_map]
      split
      · rfl
      · split
        · exact ih _ _ _
        · split
          · have := ih (processed ++ [x]) Q 0
            rwa [List.map_append] at this
          · have := ih processed (Q ++ [x]) (skip + 1)
            rwa [List.map_append] at this

theorem parts_eq (fuel n : Nat) : ∀ Q : List Uuid,
    linkedBoundaryParts t' fuel n (Q.map ρ) = (linkedBoundaryParts t fuel n Q).map (List.map (List.map ρ)) := by
  induction n with
  | zero => exact fun _ => rfl
  | succ n ih =>
    intro Q
    cases Q with
    | nil => rfl
    | cons x Q =>
      rw [List.map_cons]
      unfold linkedBoundaryParts closedLinkedSurfaces
      have := loop_eq s fuel [x] Q 0
      rw [List.map_cons, List.map_nil] at this
      simp only []
      rw [this]
      cases h : closedLinkedLoop t fuel [x] Q 0 with
      | error e => rfl
      | ok r =>
        show (do let parts ← linkedBoundaryParts t' fuel n (r.2.map ρ); return r.1.map ρ :: parts) = Except.map _ (do
          let parts ← linkedBoundaryParts t fuel n r.2
          return r.1 :: parts)
        rw [ih]
        cases linkedBoundaryParts t fuel n r.2 <;> rfl

theorem queue_eq (block : Uuid) : queueWithBlockBoundaries t' (ρ block) = (queueWithBlockBoundaries t block).map ρ := by
  have : ∀ (l a : List Uuid), l.foldl (fun queue surface => queue ++ [surface]) a = a ++ l := by
    intro l
    induction l with
    | nil => simp
    | cons x l ih => intro a; rw [List.foldl_cons, ih]; simp
  unfold queueWithBlockBoundaries
  rw [this, this, s.boundaries, related_eq s]
  rfl

theorem component_eq (kind : ComponentType) (id : Uuid) :
    t'.component kind (ρ id) = (t.component kind id).map (componentOf ρ) := by
  unfold TopologyModel.component
  rw [s.components, List.find?_map]
  have : ((fun c : TopologyComponent => c.id == ρ id) ∘ componentOf ρ) = fun c => c.id == id := by
    funext c
    show (ρ c.id == ρ id) = _
    rw [Bool.eq_iff_iff, beq_iff_eq, beq_iff_eq, ρ.injective.eq_iff]
  rw [this]
  cases (t.components kind).find? fun c => c.id == id <;> rfl

/-! ### the fused surface -/

omit s in
theorem fused_fused (f : FusedSurface) : fusedOf ρ.symm (fusedOf ρ f) = f := by
  obtain ⟨points, polygons, mapping⟩ := f
  unfold fusedOf
  simp only [List.map_map, FusedSurface.mk.injEq, and_true]
  conv_rhs => rw [← List.map_id points]
  exact List.map_congr_left fun e _ => by simp

theorem fuseVertex_eq (x : Uuid) (f : FusedSurface) (l : List Nat) (v : Index) :
    fuseVertex t' (ρ x) (fusedOf ρ f, l) v =
      (fusedOf ρ (fuseVertex t x (f, l) v).1, (fuseVertex t x (f, l) v).2) := by
  unfold fuseVertex
  simp only [s.uniqueVertex, fusedOf]
  cases h : f.mapping.find? fun e => e.1 == t.uniqueVertex ⟨⟨.surface, x⟩, v⟩ with
  | none => simp
  | some e => simp

theorem fuseVertices_eq (x : Uuid) (vs : List Index) : ∀ (f : FusedSurface) (l : List Nat),
    vs.foldl (fuseVertex t' (ρ x)) (fusedOf ρ f, l) =
      (fusedOf ρ (vs.foldl (fuseVertex t x) (f, l)).1, (vs.foldl (fuseVertex t x) (f, l)).2) := by
  induction vs with
  | nil => exact fun f l => rfl
  | cons v vs ih =>
    intro f l
    rw [List.foldl_cons, List.foldl_cons, fuseVertex_eq s, ih]

theorem fusePolygon_eq (x : Uuid) (f : FusedSurface) (p : Index) :
    fusePolygon t' (ρ x) (fusedOf ρ f) p = fusedOf ρ (fusePolygon t x f p) := by
  unfold fusePolygon
  rw [s.polygonVertices, fuseVertices_eq s]
  rfl

theorem fusePolygons_eq (x : Uuid) (ps : List Index) : ∀ f : FusedSurface,
    ps.foldl (fusePolygon t' (ρ x)) (fusedOf ρ f) = fusedOf ρ (ps.foldl (fusePolygon t x) f) := by
  induction ps with
  | nil => exact fun f => rfl
  | cons p ps ih =>
    intro f
    rw [List.foldl_cons, List.foldl_cons, fusePolygon_eq s, ih]

theorem fuse_eq (l : List Uuid) :
    fuseBRepSurfacesFromList t' (l.map ρ) = (fuseBRepSurfacesFromList t l).map (fusedOf ρ) := by
  unfold fuseBRepSurfacesFromList
  have : ∀ f : FusedSurface,
      (l.map ρ).foldlM (fun fused surface_id => do
        let surface ← t'.component .surface surface_id
        return (List.range surface.nbElements).foldl (fusePolygon t' surface_id) fused) (fusedOf ρ f) =
      (l.foldlM (fun fused surface_id => do
        let surface ← t.component .surface surface_id
        return (List.range surface.nbElements).foldl (fusePolygon t surface_id) fused) f : Except Failure _).map
        (fusedOf ρ) := by
    induction l with
    | nil => exact fun f => rfl
    | cons x l ih =>
      intro f
      rw [List.map_cons, List.foldlM_cons, List.foldlM_cons, component_eq s]
      cases h : t.component .surface x with
      | error e => rfl
      | ok c =>
        show (l.map ρ).foldlM _ ((List.range c.nbElements).foldl (fusePolygon t' (ρ x)) (fusedOf ρ f)) = _
        rw [fusePolygons_eq s, ih]
        rfl
  exact this {}

theorem partInside (g : BlockGeometry) (mesh : FusedSurface) (part : List Uuid) :
    PartInside t' (geometryOf ρ g) (fusedOf ρ mesh) (part.map ρ) ↔ PartInside t g mesh part := by
  unfold PartInside
  simp only [all_component s, List.forall_mem_map]
  simp only [componentOf, geometryOf, fused_fused, Equiv.symm_apply_apply, ρ.injective.eq_iff]

omit s in
theorem part_at (parts : List (List Uuid)) (j : Nat) (q : List Uuid → Prop) :
    (∀ p, (parts.map (List.map ρ))[j]? = some p → q p) ↔ ∀ p, parts[j]? = some p → q (p.map ρ) := by
  rw [List.getElem?_map]
  cases parts[j]? <;> simp

theorem meshEncloses (g : BlockGeometry) (parts : List (List Uuid)) (i : Nat) :
    MeshEncloses t' (geometryOf ρ g) (parts.map (List.map ρ)) i ↔ MeshEncloses t g parts i := by
  unfold MeshEncloses
  simp only [part_at]
  rw [List.getElem?_map]
  cases parts[i]? with
  | none => simp
  | some p =>
    simp only [Option.map_some, Option.some.injEq, exists_and_left, exists_eq_left']
    rw [fuse_eq s]
    cases h : fuseBRepSurfacesFromList t p with
    | error e => simp [Except.map]
    | ok mesh => simp only [Except.map, Except.ok.injEq, exists_eq_left', partInside s]

omit s in
theorem box_eq (g : BlockGeometry) (l : List Uuid) : surfaceListBox (geometryOf ρ g) (l.map ρ) = surfaceListBox g l := by
  unfold surfaceListBox
  rw [List.foldl_map]
  simp only [geometryOf, Equiv.symm_apply_apply]

omit s in
theorem boxEncloses (g : BlockGeometry) (parts : List (List Uuid)) (i : Nat) :
    BoxEncloses (geometryOf ρ g) (parts.map (List.map ρ)) i ↔ BoxEncloses g parts i := by
  unfold BoxEncloses
  simp only [part_at, box_eq]
  rw [List.getElem?_map]
  cases parts[i]? with
  | none => simp
  | some p =>
    simp only [Option.map_some, Option.some.injEq, exists_eq_left', box_eq]
    rfl

theorem encloses (g : BlockGeometry) (block : Uuid) :
    BoundaryEncloses t' (geometryOf ρ g) (ρ block) ↔ BoundaryEncloses t g block := by
  unfold BoundaryEncloses
  simp only [queue_eq s, parts_eq s]
  constructor
  · rintro ⟨parts, N, h1, h2⟩
    have hN := h1 N (Nat.le_refl N)
    cases h : linkedBoundaryParts t N N (queueWithBlockBoundaries t block) with
    | error e => rw [h] at hN; cases hN
    | ok parts0 =>
      rw [h] at hN
      have hN : Except.ok (parts0.map (List.map ρ)) = Except.ok parts := hN
      injection hN with hN
      subst hN
      refine ⟨parts0, N, fun fuel hf => ?_, ?_⟩
      · have := h1 fuel hf
        cases h' : linkedBoundaryParts t fuel fuel (queueWithBlockBoundaries t block) with
        | error e => rw [h'] at this; cases this
        | ok parts1 =>
          rw [h'] at this
          have this : Except.ok (parts1.map (List.map ρ)) = Except.ok (parts0.map (List.map ρ)) := this
          injection this with this
          rw [List.map_injective_iff.2 (List.map_injective_iff.2 ρ.injective) this]
      · simpa only [List.length_map, boxEncloses, meshEncloses s] using h2
  · rintro ⟨parts, N, h1, h2⟩
    refine ⟨parts.map (List.map ρ), N, fun fuel hf => ?_, ?_⟩
    · rw [h1 fuel hf]; rfl
    · simpa only [List.length_map, boxEncloses, meshEncloses s] using h2

theorem blocksDefect (o : BlocksOracle) : BlocksDefect t' (oracleOf ρ o) ↔ BlocksDefect t o := by
  unfold BlocksDefect
  have h1 : AllLinked t' (oracleOf ρ o).modelBoundaries.flatten ↔ AllLinked t o.modelBoundaries.flatten := by
    show AllLinked t' (o.modelBoundaries.map (List.map ρ)).flatten ↔ _
    rw [← List.map_flatten, allLinked s]
  have h2 : (oracleOf ρ o).modelBoundaries ≠ [] ↔ o.modelBoundaries ≠ [] := by
    show o.modelBoundaries.map (List.map ρ) ≠ [] ↔ _
    rw [ne_eq, List.map_eq_nil_iff]
  rw [h1, h2]
  simp only [ex_component s, s.nbUniqueVertices, notAssociated s, twoBlocks s, blockCountWrong s, singleInvalid s,
    surfaceWrong s, multipleInvalid s]
  simp only [componentOf, openBoundary s]
  simp only [show (oracleOf ρ o).geometry = geometryOf ρ o.geometry from rfl, encloses s]
  exact Iff.rfl

theorem brepTopology (o : BlocksOracle) : BRepTopologyDefect t' (oracleOf ρ o) ↔ BRepTopologyDefect t o := by
  unfold BRepTopologyDefect
  simp only [ex_component s, notAssociated s]
  simp only [blocksDefect s, s.nbUniqueVertices, brepVertex s, bijectivelyLinked s, unmeshed s, unlinked s, componentOf,
    edgeWrong s, facetWrong s, allMeshed s]

theorem otherTopology (o : BlocksOracle) : OtherTopologyDefect t' (oracleOf ρ o) ↔ OtherTopologyDefect t o := by
  unfold OtherTopologyDefect
  simp only [ex_component s, notAssociated s]
  simp only [blocksDefect s, s.nbUniqueVertices, bijectivelyLinked s, unmeshed s, unlinked s, componentOf,
    facetWrong s, allMeshed s, twiceActive s, cornerMultiply s, cornerAlone s, cornerNotOnLine s, invalidEmbeddedSurface s,
    invalidMultiple s, relatedLine s]

end

/-! ### models -/

section
variable {P : Type} {lib : ModelLibrary P} {ρ : Equiv.Perm Uuid} {m : ModelData P}

theorem renamed (rt rt' : ModelRuntime) : Renamed ρ (m.topology rt) ((withIds ρ m).topology rt') where
  components kind := by
    cases kind <;> simp [ModelData.topology, withIds, Function.comp_def, componentOf, cornerOf, lineOf, faceOf, volumeOf]
  nbUniqueVertices := rfl
  cmvs v := rfl
  uniqueVertex kind id v := by
    show m.uniqueVertex ⟨⟨kind, ρ.symm (ρ id)⟩, v⟩ = _
    rw [Equiv.symm_apply_apply]; rfl
  isBoundary a b := by
    show m.isBoundary (ρ.symm (ρ a)) (ρ.symm (ρ b)) = _
    rw [Equiv.symm_apply_apply, Equiv.symm_apply_apply]; rfl
  isInternal a b := by
    show m.isInternal (ρ.symm (ρ a)) (ρ.symm (ρ b)) = _
    rw [Equiv.symm_apply_apply, Equiv.symm_apply_apply]; rfl
  embeddings id := by
    show (m.embeddings (ρ.symm (ρ id))).map _ = _
    rw [Equiv.symm_apply_apply]; rfl
  incidences id := by
    show (m.incidences (ρ.symm (ρ id))).map _ = _
    rw [Equiv.symm_apply_apply]; rfl
  boundaries id := by
    show (m.boundaries (ρ.symm (ρ id))).map _ = _
    rw [Equiv.symm_apply_apply]; rfl
  isVertexOnBorder id v := by
    show m.isVertexOnBorder (ρ.symm (ρ id)) v = _
    rw [Equiv.symm_apply_apply]; rfl
  surfaceEdges id e := by
    show keysOf ρ (m.surfaceEdges (ρ.symm (ρ id)) e) = _
    rw [Equiv.symm_apply_apply]; rfl
  blockEdges id e := by
    show keysOf ρ (m.blockEdges (ρ.symm (ρ id)) e) = _
    rw [Equiv.symm_apply_apply]; rfl
  blockPolygons id e := by
    show keysOf ρ (m.blockPolygons (ρ.symm (ρ id)) e) = _
    rw [Equiv.symm_apply_apply]; rfl
  polygonVertices id f := by
    show (((m.surfaces.map (faceOf ρ)).find? fun s => s.id == ρ id).map fun s => s.polygonVertices f).getD [] =
      ((m.surfaces.find? fun s => s.id == id).map fun s => s.polygonVertices f).getD []
    rw [List.find?_map]
    have : ((fun c : FaceData P => c.id == ρ id) ∘ faceOf ρ) = fun c => c.id == id := by
      funext c
      show (ρ c.id == ρ id) = _
      rw [Bool.eq_iff_iff, beq_iff_eq, beq_iff_eq, ρ.injective.eq_iff]
    rw [this]
    cases m.surfaces.find? fun s => s.id == id <;> rfl

theorem isActiveId (id : Uuid) : IsActiveId (withIds ρ m) (ρ id) ↔ IsActiveId m id := by
  unfold IsActiveId
  simp [withIds, cornerOf, lineOf, faceOf, volumeOf]

theorem pointsOf (c : ComponentID) (points : List P) : PointsOf (withIds ρ m) (idOf ρ c) points ↔ PointsOf m c points := by
  obtain ⟨kind, id⟩ := c
  unfold PointsOf
  cases kind <;> simp [withIds, idOf, cornerOf, lineOf, faceOf, volumeOf]

theorem isAt (cmv : ComponentMeshVertex) (p : P) : IsAt lib (withIds ρ m) (cmvOf ρ cmv) p ↔ IsAt lib m cmv p := by
  unfold IsAt
  simp only [cmvOf, pointsOf]

theorem firstActive (uv : Index) (first : ComponentMeshVertex) :
    FirstActive (withIds ρ m) uv (cmvOf ρ first) ↔ FirstActive m uv first := by
  unfold FirstActive
  constructor
  · rintro ⟨before, after, h1, h2, h3⟩
    have h1 : (m.componentMeshVertices uv).map (cmvOf ρ) = before ++ cmvOf ρ first :: after := h1
    rw [List.map_eq_append_iff] at h1
    obtain ⟨b, r, e1, rfl, e2⟩ := h1
    rw [List.map_eq_cons_iff] at e2
    obtain ⟨f, a, rfl, e3, rfl⟩ := e2
    obtain rfl := Function.LeftInverse.injective (cmv_cmv ρ) e3
    refine ⟨b, a, e1, (isActiveId _).1 h2, fun c hc ha => h3 (cmvOf ρ c) (List.mem_map_of_mem hc) ((isActiveId _).2 ha)⟩
  · rintro ⟨before, after, h1, h2, h3⟩
    refine ⟨before.map (cmvOf ρ), after.map (cmvOf ρ), ?_, (isActiveId _).2 h2, ?_⟩
    · show (m.componentMeshVertices uv).map (cmvOf ρ) = _
      rw [h1]; simp
    · intro c hc
      obtain ⟨c, hc', rfl⟩ := List.mem_map.1 hc
      exact fun ha => h3 c hc' ((isActiveId _).1 ha)

theorem cmv_surjective (ρ : Equiv.Perm Uuid) (c : ComponentMeshVertex) : ∃ c0, cmvOf ρ c0 = c :=
  ⟨cmvOf ρ.symm c, by simpa using cmv_cmv ρ.symm c⟩

theorem differentPoints (uv : Index) : PlainDifferentPoints lib (withIds ρ m) uv ↔ PlainDifferentPoints lib m uv := by
  unfold PlainDifferentPoints
  constructor
  · rintro ⟨first, p, cmv, q, h1, h2, h3, h4, h5, h6⟩
    obtain ⟨first, rfl⟩ := cmv_surjective ρ first
    obtain ⟨cmv, h3', rfl⟩ := List.mem_map.1 h3
    exact ⟨first, p, cmv, q, (firstActive _ _).1 h1, (isAt _ _).1 h2, h3', (isActiveId _).1 h4, (isAt _ _).1 h5, h6⟩
  · rintro ⟨first, p, cmv, q, h1, h2, h3, h4, h5, h6⟩
    exact ⟨cmvOf ρ first, p, cmvOf ρ cmv, q, (firstActive _ _).2 h1, (isAt _ _).2 h2, List.mem_map_of_mem h3,
      (isActiveId _).2 h4, (isAt _ _).2 h5, h6⟩

theorem activePoints (uvs : List Index) (points : List P) :
    ActivePoints lib (withIds ρ m) uvs points ↔ ActivePoints lib m uvs points := by
  unfold ActivePoints
  have h1 : ∀ uv, (∃ cmv ∈ (withIds ρ m).componentMeshVertices uv, IsActiveId (withIds ρ m) cmv.component_id.id) ↔
      ∃ cmv ∈ m.componentMeshVertices uv, IsActiveId m cmv.component_id.id := by
    intro uv
    show (∃ cmv ∈ (m.componentMeshVertices uv).map (cmvOf ρ), _) ↔ _
    constructor
    · rintro ⟨c, hc, ha⟩
      obtain ⟨c, hc', rfl⟩ := List.mem_map.1 hc
      exact ⟨c, hc', (isActiveId _).1 ha⟩
    · rintro ⟨c, hc, ha⟩
      exact ⟨cmvOf ρ c, List.mem_map_of_mem hc, (isActiveId _).2 ha⟩
  have h2 : ∀ uv p, (∃ first, FirstActive (withIds ρ m) uv first ∧ IsAt lib (withIds ρ m) first p) ↔
      ∃ first, FirstActive m uv first ∧ IsAt lib m first p := by
    intro uv p
    constructor
    · rintro ⟨c, h1, h2⟩
      obtain ⟨c, rfl⟩ := cmv_surjective ρ c
      exact ⟨c, (firstActive _ _).1 h1, (isAt _ _).1 h2⟩
    · rintro ⟨c, h1, h2⟩
      exact ⟨cmvOf ρ c, (firstActive _ _).2 h1, (isAt _ _).2 h2⟩
  simp only [h1, h2]
  exact Iff.rfl

theorem colocatedUvs : PlainColocatedUniqueVertices lib (withIds ρ m) ↔ PlainColocatedUniqueVertices lib m := by
  unfold PlainColocatedUniqueVertices
  simp only [activePoints]

theorem uniqueVertex_eq (kind : ComponentType) (id : Uuid) (v : Index) :
    (withIds ρ m).uniqueVertex ⟨⟨kind, ρ id⟩, v⟩ = m.uniqueVertex ⟨⟨kind, id⟩, v⟩ := by
  show m.uniqueVertex ⟨⟨kind, ρ.symm (ρ id)⟩, v⟩ = _
  rw [Equiv.symm_apply_apply]

theorem numberOf (kind : ComponentType) (id : Uuid) (v n : Index) :
    NumberOf (withIds ρ m) kind (ρ id) v n ↔ NumberOf m kind id v n := by
  unfold NumberOf
  rw [uniqueVertex_eq]
  exact Iff.rfl

theorem splitVertices (kind : ComponentType) (id : Uuid) (points : List P) :
    PlainSplitVertices lib (withIds ρ m) kind (ρ id) points ↔ PlainSplitVertices lib m kind id points := by
  unfold PlainSplitVertices
  simp only [numberOf]

theorem lineDefect (l : LineData P) : PlainLineDefect lib (withIds ρ m) (lineOf ρ l) ↔ PlainLineDefect lib m l := by
  unfold PlainLineDefect
  simp only [lineOf, splitVertices]

theorem borderNotOnLine (s : FaceData P) (x : PolygonEdge) :
    BorderNotOnLine (withIds ρ m) (faceOf ρ s) x ↔ BorderNotOnLine m s x := by
  unfold BorderNotOnLine
  have : ∀ u v, (withIds ρ m).lineComponentMeshEdges u v ≠ [] ↔ m.lineComponentMeshEdges u v ≠ [] := by
    intro u v
    show (m.lineComponentMeshEdges u v).map _ ≠ [] ↔ _
    rw [ne_eq, List.map_eq_nil_iff]
  simp only [faceOf, uniqueVertex_eq, this]
  exact Iff.rfl

theorem surfaceDefect (s : FaceData P) :
    PlainSurfaceDefect lib (withIds ρ m) (faceOf ρ s) ↔ PlainSurfaceDefect lib m s := by
  unfold PlainSurfaceDefect
  simp only [borderNotOnLine]
  simp only [faceOf, splitVertices]
  exact Iff.rfl

theorem borderNotOnSurface (b : VolumeData P) (x : PolyhedronFacet) :
    BorderNotOnSurface (withIds ρ m) (volumeOf ρ b) x ↔ BorderNotOnSurface m b x := by
  unfold BorderNotOnSurface
  have : ∀ uvs, (withIds ρ m).surfaceComponentMeshPolygons uvs = [] ↔ m.surfaceComponentMeshPolygons uvs = [] := by
    intro uvs
    show (m.surfaceComponentMeshPolygons uvs).map _ = [] ↔ _
    rw [List.map_eq_nil_iff]
  simp only [volumeOf, uniqueVertex_eq, this]

theorem blockDefect (b : VolumeData P) :
    PlainBlockDefect lib (withIds ρ m) (volumeOf ρ b) ↔ PlainBlockDefect lib m b := by
  unfold PlainBlockDefect
  simp only [borderNotOnSurface]
  simp only [volumeOf, splitVertices]
  exact Iff.rfl

theorem ex_line (q : LineData P → Prop) : (∃ l ∈ (withIds ρ m).lines, q l) ↔ ∃ l ∈ m.lines, q (lineOf ρ l) := by
  show (∃ l ∈ m.lines.map (lineOf ρ), q l) ↔ _
  simp

theorem ex_face (q : FaceData P → Prop) : (∃ s ∈ (withIds ρ m).surfaces, q s) ↔ ∃ s ∈ m.surfaces, q (faceOf ρ s) := by
  show (∃ l ∈ m.surfaces.map (faceOf ρ), q l) ↔ _
  simp

theorem ex_volume (q : VolumeData P → Prop) : (∃ b ∈ (withIds ρ m).blocks, q b) ↔ ∃ b ∈ m.blocks, q (volumeOf ρ b) := by
  show (∃ l ∈ m.blocks.map (volumeOf ρ), q l) ↔ _
  simp

theorem interiorEdge (s : FaceData P) (x : PolygonEdge) (u v : Index) (h : s ∈ m.surfaces) :
    InteriorEdge (withIds ρ m) (faceOf ρ s) x u v ↔ InteriorEdge m s x u v := by
  unfold InteriorEdge
  have h' : faceOf ρ s ∈ (withIds ρ m).surfaces := List.mem_map_of_mem h
  simp only [h, h', true_and]
  simp only [faceOf, numberOf]

theorem twiceInterior : TwiceInterior (withIds ρ m) ↔ TwiceInterior m := by
  unfold TwiceInterior
  constructor
  · rintro ⟨s, x, u, v, s', x', u', v', h1, h2, h3, h4⟩
    obtain ⟨s, hs, rfl⟩ := List.mem_map.1 h1.1
    obtain ⟨s', hs', rfl⟩ := List.mem_map.1 h2.1
    refine ⟨s, x, u, v, s', x', u', v', (interiorEdge _ _ _ _ hs).1 h1, (interiorEdge _ _ _ _ hs').1 h2, ?_, h4⟩
    exact h3.imp_left fun h e => h (congrArg ρ e)
  · rintro ⟨s, x, u, v, s', x', u', v', h1, h2, h3, h4⟩
    refine ⟨faceOf ρ s, x, u, v, faceOf ρ s', x', u', v', (interiorEdge _ _ _ _ h1.1).2 h1, (interiorEdge _ _ _ _ h2.1).2 h2,
      ?_, h4⟩
    exact h3.imp_left fun h e => h (ρ.injective e)

theorem alone (kind : ComponentType) (id : Uuid) (v : Index) :
    AloneAtUniqueVertex (withIds ρ m) kind (ρ id) v ↔ AloneAtUniqueVertex m kind id v := by
  unfold AloneAtUniqueVertex
  simp only [numberOf]
  have : ∀ n, ((withIds ρ m).componentMeshVertices n).length = (m.componentMeshVertices n).length := fun n =>
    List.length_map ..
  simp only [this]

theorem embedded (id : Uuid) (k : ComponentType) :
    (∃ c ∈ (withIds ρ m).embeddings (ρ id), c.type = k) ↔ ∃ c ∈ m.embeddings id, c.type = k := by
  show (∃ c ∈ (m.embeddings (ρ.symm (ρ id))).map (idOf ρ), _) ↔ _
  rw [Equiv.symm_apply_apply]
  simp [idOf]

theorem floatingEdge (l : LineData P) : FloatingEdge (withIds ρ m) (lineOf ρ l) ↔ FloatingEdge m l := by
  unfold FloatingEdge
  simp only [lineOf, embedded, alone]

theorem floatingFacet (s : FaceData P) : FloatingFacet (withIds ρ m) (faceOf ρ s) ↔ FloatingFacet m s := by
  unfold FloatingFacet
  simp only [faceOf, embedded, alone]

/-- A Surface as given to the tests of triangles, with another uuid. -/
def surfaceOf (ρ : Equiv.Perm Uuid) (r : ModelSurface P) : ModelSurface P := { r with id := ρ r.id }

theorem givenSurface (s : FaceData P) (r : ModelSurface P) :
    GivenSurface lib (withIds ρ m) (faceOf ρ s) (surfaceOf ρ r) ↔ GivenSurface lib m s r := by
  constructor
  · intro g
    exact ⟨ρ.injective g.id, g.active, g.nbPolygons, g.polygonVertices, g.nbVertices, g.point,
      fun v => (numberOf _ _ _ _).1 (g.uniqueVertex v)⟩
  · intro g
    exact ⟨congrArg ρ g.id, g.active, g.nbPolygons, g.polygonVertices, g.nbVertices, g.point,
      fun v => (numberOf _ _ _ _).2 (g.uniqueVertex v)⟩

theorem surface_surjective (ρ : Equiv.Perm Uuid) (r : ModelSurface P) : ∃ r0, surfaceOf ρ r0 = r :=
  ⟨surfaceOf ρ.symm r, by unfold surfaceOf; simp⟩

theorem polygonsMeet {Meet : ModelSurface P → ModelSurface P → List Index → List Index → Prop}
    (hm : ∀ r1 r2 t1 t2, Meet (surfaceOf ρ r1) (surfaceOf ρ r2) t1 t2 ↔ Meet r1 r2 t1 t2) :
    PlainPolygonsMeet lib (withIds ρ m) Meet ↔ PlainPolygonsMeet lib m Meet := by
  unfold PlainPolygonsMeet
  constructor
  · rintro ⟨s1, s2, r1, r2, p, q, h1, h2, h3, h4, g1, g2, h5, h6, h7, t1, ht1, t2, ht2, hmeet⟩
    obtain ⟨s1, h1', rfl⟩ := List.mem_map.1 h1
    obtain ⟨s2, h3', rfl⟩ := List.mem_map.1 h3
    obtain ⟨r1, rfl⟩ := surface_surjective ρ r1
    obtain ⟨r2, rfl⟩ := surface_surjective ρ r2
    exact ⟨s1, s2, r1, r2, p, q, h1', h2, h3', h4, (givenSurface _ _).1 g1, (givenSurface _ _).1 g2, h5, h6,
      fun e => h7 ⟨congrArg ρ e.1, e.2⟩, t1, ht1, t2, ht2, (hm _ _ _ _).1 hmeet⟩
  · rintro ⟨s1, s2, r1, r2, p, q, h1, h2, h3, h4, g1, g2, h5, h6, h7, t1, ht1, t2, ht2, hmeet⟩
    exact ⟨faceOf ρ s1, faceOf ρ s2, surfaceOf ρ r1, surfaceOf ρ r2, p, q, List.mem_map_of_mem h1, h2,
      List.mem_map_of_mem h3, h4, (givenSurface _ _).2 g1, (givenSurface _ _).2 g2, h5, h6,
      fun e => h7 ⟨ρ.injective e.1, e.2⟩, t1, ht1, t2, ht2, (hm _ _ _ _).2 hmeet⟩

theorem common (r1 r2 : ModelSurface P) (t1 t2 : List Index) (c : List (Index × Index)) :
    CommonVertices (surfaceOf ρ r1) (surfaceOf ρ r2) t1 t2 c ↔ CommonVertices r1 r2 t1 t2 c :=
  ⟨fun h => ⟨h.1, h.2⟩, fun h => ⟨h.1, h.2⟩⟩

theorem sectionMeet (g : Geometry P) (r1 r2 : ModelSurface P) (t1 t2 : List Index) :
    SectionTrianglesMeet g (surfaceOf ρ r1) (surfaceOf ρ r2) t1 t2 ↔ SectionTrianglesMeet g r1 r2 t1 t2 := by
  unfold SectionTrianglesMeet
  simp only [common]
  rfl

theorem brepMeet (g : Geometry P) (r1 r2 : ModelSurface P) (t1 t2 : List Index) :
    BRepTrianglesMeet g (surfaceOf ρ r1) (surfaceOf ρ r2) t1 t2 ↔ BRepTrianglesMeet g r1 r2 t1 t2 := by
  unfold BRepTrianglesMeet
  simp only [common]
  rfl

theorem lineMeets : PlainLineMeetsSurface lib (withIds ρ m) ↔ PlainLineMeetsSurface lib m := by
  unfold PlainLineMeetsSurface
  constructor
  · rintro ⟨s, l, r, p, e, a, b, h1, h2, h3, h4, h5, g, h6⟩
    obtain ⟨s, h1', rfl⟩ := List.mem_map.1 h1
    obtain ⟨l, h3', rfl⟩ := List.mem_map.1 h3
    obtain ⟨r, rfl⟩ := surface_surjective ρ r
    exact ⟨s, l, r, p, e, a, b, h1', h2, h3', h4, (embedded _ _).1 h5, (givenSurface _ _).1 g, h6⟩
  · rintro ⟨s, l, r, p, e, a, b, h1, h2, h3, h4, h5, g, h6⟩
    exact ⟨faceOf ρ s, lineOf ρ l, surfaceOf ρ r, p, e, a, b, List.mem_map_of_mem h1, h2, List.mem_map_of_mem h3, h4,
      (embedded _ _).2 h5, (givenSurface _ _).2 g, h6⟩

theorem meshDefect : PlainBRepMeshDefect lib (withIds ρ m) ↔ PlainBRepMeshDefect lib m := by
  unfold PlainBRepMeshDefect
  simp only [ex_line, ex_face, ex_volume, colocatedUvs, differentPoints, lineDefect, surfaceDefect, blockDefect,
    twiceInterior, floatingEdge, floatingFacet, polygonsMeet (brepMeet lib.geometry)]
  exact Iff.rfl

theorem nonEmptyLines : (∀ l ∈ (withIds ρ m).lines, l.active = true → l.nbEdges ≠ 0) ↔
    ∀ l ∈ m.lines, l.active = true → l.nbEdges ≠ 0 := by
  show (∀ l ∈ m.lines.map (lineOf ρ), _) ↔ _
  simp [lineOf]

end

end Inspector.Ids
