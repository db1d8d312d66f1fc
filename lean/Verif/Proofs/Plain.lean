import Verif.Proofs.TrianglesMeet
import Mathlib.Data.List.Nodup
import Mathlib.Data.List.Sort
import Mathlib.Data.List.Pairwise
import Verif.Spec.Plain
import Verif.Proofs.WholeModelVerdict
/-
The defects of a model, in terms of the model alone (C99).
-/
namespace Inspector.Plain
open Spec
variable {P : Type}

theorem numberOf_iff (m : ModelData P) (kind : ComponentType) (id : Uuid) (v n : Index) :
    NumberOf m kind id v n ↔ n = m.uniqueVertexId kind id v := by
  unfold NumberOf ModelData.uniqueVertexId
  cases h : m.uniqueVertex ⟨⟨kind, id⟩, v⟩ with
  | none => simp
  | some x => simp [eq_comm]

theorem isActive_iff (m : ModelData P) (id : Uuid) : m.isActive id = true ↔ IsActiveId m id := by
  unfold ModelData.isActive IsActiveId
  simp only [Bool.or_eq_true, List.any_eq_true, Bool.and_eq_true, beq_iff_eq, or_assoc]

theorem plain_split_iff (lib : ModelLibrary P) (m : ModelData P) (kind : ComponentType) (id : Uuid) (points : List P) :
    HasSplitVertices lib m kind id points ↔ PlainSplitVertices lib m kind id points := by
  unfold HasSplitVertices PlainSplitVertices
  simp [numberOf_iff]

theorem isPoint_iff (lib : ModelLibrary P) (points : List P) (v : Index) (p : P) :
    IsPoint lib points v p ↔ p = ModelData.pointOf lib (some points) v := by
  unfold IsPoint ModelData.pointOf
  cases h : points[v]? with
  | none => simp [h]
  | some x => simp [h, eq_comm]

/-! ### meshes -/

theorem lineDefect_iff (lib : ModelLibrary P) (m : ModelData P) (l : LineData P) :
    LineMeshDefect lib m l ↔ PlainLineDefect lib m l := by
  unfold LineMeshDefect PlainLineDefect
  rw [plain_split_iff]

theorem brokenFan_iff (lib : ModelLibrary P) (s : FaceData P) (v : Index) :
    BrokenFan (s.topo lib.toLibrary) v ↔ PlainBrokenFan s v := by
  unfold BrokenFan PlainBrokenFan IsWholeFan IsPolygonEdge SurfaceData.topo
  simp only [and_assoc]

theorem surfaceDefect_iff (lib : ModelLibrary P) (m : ModelData P) (s : FaceData P) :
    SurfaceMeshDefect lib m s ↔ PlainSurfaceDefect lib m s := by
  unfold SurfaceMeshDefect PlainSurfaceDefect
  simp only [plain_split_iff, brokenFan_iff]
  rfl

theorem map_some_iff (f : Index → Option Index) (l uvs : List Index) :
    l.map f = uvs.map some ↔ List.Forall₂ (fun v uv => f v = some uv) l uvs := by
  induction l generalizing uvs with
  | nil => cases uvs <;> simp
  | cons a l ih => cases uvs with
    | nil => simp
    | cons b uvs => simp [ih]

theorem plain_borderFacet_iff (m : ModelData P) (b : VolumeData P) (x : PolyhedronFacet) :
    BorderFacetNotOnSurface m.adjacency (m.adjacencyBlock b) x ↔ BorderNotOnSurface m b x := by
  unfold BorderFacetNotOnSurface BorderNotOnSurface
  simp only [map_some_iff]
  rfl

theorem plain_badTurn_iff (lib : ModelLibrary P) (b : VolumeData P) :
    (∃ p e, FirstUse (b.topo lib.toLibrary) p e ∧ BadTurn (b.topo lib.toLibrary) p e) ↔ ∃ e, PlainBadTurn b e := by
  constructor
  · rintro ⟨p, e, ⟨before, after, h1, h2⟩, h3⟩
    exact ⟨e, p, before, after, h1, h2, h3⟩
  · rintro ⟨e, p, before, after, h1, h2, h3⟩
    exact ⟨p, e, ⟨before, after, h1, h2⟩, h3⟩

theorem mem_pairs_iff (n : Nat) (f : Nat → Nat) (x : Nat × Nat) : x ∈ pairs n f ↔ x.1 < n ∧ x.2 < f x.1 := by
  unfold pairs
  obtain ⟨a, b⟩ := x
  simp only [List.mem_flatMap, List.mem_range, List.mem_map, Prod.mk.injEq]
  constructor
  · rintro ⟨_, h1, _, h2, rfl, rfl⟩; exact ⟨h1, h2⟩
  · rintro ⟨h1, h2⟩; exact ⟨a, h1, b, h2, rfl, rfl⟩

theorem pairs_nodup' (n : Nat) (f : Nat → Nat) : (pairs n f).Nodup := by
  unfold pairs
  rw [List.nodup_flatMap]
  constructor
  · intro a _
    exact List.nodup_range.map (fun _ _ h => (Prod.mk.inj h).2)
  · refine List.nodup_range.imp ?_
    intro a b hab x hx hy
    obtain ⟨_, _, rfl⟩ := List.mem_map.1 hx
    obtain ⟨_, _, h⟩ := List.mem_map.1 hy
    exact hab (Prod.mk.inj h).1.symm

/-- three distinct members of a list without double -/
theorem three_members {α : Type} {l : List α} (h : l.Nodup) :
    2 < l.length ↔ ∃ x y z, x ≠ y ∧ x ≠ z ∧ y ≠ z ∧ x ∈ l ∧ y ∈ l ∧ z ∈ l := by
  constructor
  · intro hl
    match l, h, hl with
    | a :: b :: c :: l, h, _ =>
      simp only [List.nodup_cons, List.mem_cons, not_or] at h
      exact ⟨a, b, c, h.1.1, h.1.2.1, h.2.1.1, by simp, by simp, by simp⟩
  · rintro ⟨x, y, z, hxy, hxz, hyz, hx, hy, hz⟩
    have hs : [x, y, z] ⊆ l := by
      intro w hw
      simp only [List.mem_cons, List.not_mem_nil, or_false] at hw
      rcases hw with rfl | rfl | rfl <;> assumption
    have hn : [x, y, z].Nodup := by simp [hxy, hxz, hyz]
    have := (hn.subperm hs).length_le
    simp only [List.length_cons, List.length_nil] at this
    omega

/-- two distinct members of a list without double -/
theorem two_members {α : Type} {l : List α} (h : l.Nodup) : 2 ≤ l.length ↔ ∃ x y, x ≠ y ∧ x ∈ l ∧ y ∈ l := by
  constructor
  · intro hl
    match l, h, hl with
    | a :: b :: l, h, _ =>
      simp only [List.nodup_cons, List.mem_cons, not_or] at h
      exact ⟨a, b, h.1.1, by simp, by simp⟩
  · rintro ⟨x, y, hxy, hx, hy⟩
    have hs : [x, y] ⊆ l := by
      intro w hw
      simp only [List.mem_cons, List.not_mem_nil, or_false] at hw
      rcases hw with rfl | rfl <;> assumption
    have hn : [x, y].Nodup := by simp [hxy]
    have := (hn.subperm hs).length_le
    simpa using this

theorem threeFacets_iff (lib : ModelLibrary P) (b : VolumeData P) :
    (∃ f, 2 < (usesOfFacet lib.cycle b.toSolidMesh f).length) ↔ ThreeTimesSameFacet lib b := by
  have hn : ∀ f, (usesOfFacet lib.cycle b.toSolidMesh f).Nodup := fun f => (pairs_nodup' _ _).filter _
  have hm : ∀ f x, x ∈ usesOfFacet lib.cycle b.toSolidMesh f ↔
      IsPolyhedronFacet b.toSolidMesh x ∧ lib.cycle (b.polyhedronFacetVertices x) = f := by
    intro f x
    unfold usesOfFacet IsPolyhedronFacet
    rw [List.mem_filter, mem_pairs_iff, decide_eq_true_eq]
  constructor
  · rintro ⟨f, hf⟩
    obtain ⟨x, y, z, h1, h2, h3, hx, hy, hz⟩ := (three_members (hn f)).1 hf
    rw [hm] at hx hy hz
    refine ⟨x, y, z, h1, h2, h3, ?_, hx.2.trans hy.2.symm, hx.2.trans hz.2.symm⟩
    intro g hg
    simp only [List.mem_cons, List.not_mem_nil, or_false] at hg
    rcases hg with rfl | rfl | rfl
    exacts [hx.1, hy.1, hz.1]
  · rintro ⟨x, y, z, h1, h2, h3, hf, hy, hz⟩
    refine ⟨lib.cycle (b.polyhedronFacetVertices x), (three_members (hn _)).2 ⟨x, y, z, h1, h2, h3, ?_, ?_, ?_⟩⟩
    · exact (hm _ _).2 ⟨hf x (by simp), rfl⟩
    · exact (hm _ _).2 ⟨hf y (by simp), hy.symm⟩
    · exact (hm _ _).2 ⟨hf z (by simp), hz.symm⟩

theorem negative_iff (b : VolumeData P) (p : Index) : NegativePolyhedron b.signed p ↔ PlainNegative b p := by
  unfold NegativePolyhedron PlainNegative SolidData.signed
  simp only []
  by_cases h : b.nbPolyhedronVertices p = 4
  · simp [h]
  · simp [h]

theorem blockDefect_iff (lib : ModelLibrary P) (m : ModelData P) (b : VolumeData P) :
    BlockMeshDefect lib m b ↔ PlainBlockDefect lib m b := by
  unfold BlockMeshDefect PlainBlockDefect
  simp only [plain_split_iff, plain_borderFacet_iff, plain_badTurn_iff, threeFacets_iff, negative_iff]
  rfl

/-! ### unique vertices -/

theorem find_id {α : Type} (l : List α) (id : α → Uuid) (hn : (l.map id).Nodup) (x : α) (hx : x ∈ l) :
    (l.find? fun c => id c == id x) = some x := by
  induction l with
  | nil => cases hx
  | cons a l ih =>
    rw [List.map_cons, List.nodup_cons] at hn
    rcases List.mem_cons.1 hx with rfl | hx
    · simp
    · rw [List.find?_cons_of_neg]
      · exact ih hn.2 hx
      · intro he
        rw [beq_iff_eq] at he
        exact hn.1 (he ▸ List.mem_map_of_mem hx)

theorem find_none {α : Type} (l : List α) (id : α → Uuid) (i : Uuid) (h : ∀ x ∈ l, id x ≠ i) :
    (l.find? fun c => id c == i) = none := by
  rw [List.find?_eq_none]
  intro x hx he
  exact h x hx (by simpa using he)

theorem meshes_nodup {lib : ModelLibrary P} {m : ModelData P} (h : MeshesOk lib m) :
    (m.corners.map CornerData.id).Nodup ∧ (m.lines.map LineData.id).Nodup ∧
    (m.surfaces.map FaceData.id).Nodup ∧ (m.blocks.map VolumeData.id).Nodup := by
  have := h.ids
  rw [List.nodup_append, List.nodup_append, List.nodup_append] at this
  exact ⟨this.1.1.1, this.1.1.2.1, this.1.2.1, this.2.1⟩

/-- the position of a vertex of a component found among the components of a kind -/
theorem at_iff {α : Type} (lib : ModelLibrary P) (l : List α) (id : α → Uuid) (points : α → List P)
    (hn : (l.map id).Nodup) (i : Uuid) (v : Index) (p : P) :
    ((∃ ps, (∃ x ∈ l, id x = i ∧ points x = ps) ∧ ps[v]? = some p) ∨
      ((¬ ∃ ps q, (∃ x ∈ l, id x = i ∧ points x = ps) ∧ ps[v]? = some q) ∧ p = lib.origin)) ↔
    p = ModelData.pointOf lib ((l.find? fun c => id c == i).map points) v := by
  by_cases hex : ∃ x ∈ l, id x = i
  · obtain ⟨x, hx, rfl⟩ := hex
    have hu : ∀ y ∈ l, id y = id x → y = x := fun y hy he =>
      List.inj_on_of_nodup_map hn hy hx he
    rw [find_id l id hn x hx]
    unfold ModelData.pointOf
    simp only [Option.map_some, Option.getD_some]
    constructor
    · rintro (⟨_, ⟨y, hy, he, rfl⟩, hp⟩ | ⟨h1, h2⟩)
      · rw [hu y hy he] at hp
        rw [hp]; rfl
      · cases hq : (points x)[v]? with
        | none => simpa using h2
        | some q => exact absurd ⟨_, q, ⟨x, hx, rfl, rfl⟩, hq⟩ h1
    · intro hp
      cases hq : (points x)[v]? with
      | none =>
        refine .inr ⟨?_, by simpa [hq] using hp⟩
        rintro ⟨_, q, ⟨y, hy, he, rfl⟩, hq'⟩
        rw [hu y hy he, hq] at hq'
        cases hq'
      | some q =>
        rw [hq] at hp
        exact .inl ⟨_, ⟨x, hx, rfl, rfl⟩, by rw [hq, hp]; rfl⟩
  · have h : ∀ x ∈ l, id x ≠ i := fun x hx he => hex ⟨x, hx, he⟩
    rw [find_none l id i h]
    unfold ModelData.pointOf
    simp only [Option.map_none, Option.getD_none, List.getElem?_nil]
    constructor
    · rintro (⟨_, ⟨y, hy, he, rfl⟩, _⟩ | ⟨_, h2⟩)
      · exact absurd he (h y hy)
      · exact h2
    · intro hp
      refine .inr ⟨?_, hp⟩
      rintro ⟨_, q, ⟨y, hy, he, rfl⟩, _⟩
      exact h y hy he

theorem isAt_iff {lib : ModelLibrary P} {m : ModelData P} (h : MeshesOk lib m) (cmv : ComponentMeshVertex)
    (ht : cmv.component_id.type ≠ .other) (p : P) :
    IsAt lib m cmv p ↔ p = position (m.uniqueVertices lib) cmv := by
  obtain ⟨h1, h2, h3, h4⟩ := meshes_nodup h
  obtain ⟨⟨type, id⟩, v⟩ := cmv
  unfold IsAt PointsOf position
  cases type with
  | corner => exact at_iff lib m.corners CornerData.id CornerData.points h1 id v p
  | line => exact at_iff lib m.lines LineData.id (fun c => c.points) h2 id v p
  | surface => exact at_iff lib m.surfaces FaceData.id (fun c => c.points) h3 id v p
  | block => exact at_iff lib m.blocks VolumeData.id (fun c => c.points) h4 id v p
  | other => exact absurd rfl ht

theorem filter_first {α : Type} (q : α → Bool) (l : List α) (x : α) :
    (∃ before after, l = before ++ x :: after ∧ q x = true ∧ ∀ y ∈ before, ¬ q y = true) ↔
      (l.filter q).head? = some x := by
  induction l with
  | nil => simp
  | cons a l ih =>
    by_cases ha : q a = true
    · rw [List.filter_cons_of_pos ha]
      simp only [List.head?_cons, Option.some.injEq]
      constructor
      · rintro ⟨before, after, h1, h2, h3⟩
        cases before with
        | nil => exact (List.cons.inj h1).1
        | cons b before =>
          have := (List.cons.inj h1).1
          exact absurd ha (this ▸ h3 b (by simp))
      · rintro rfl
        exact ⟨[], l, rfl, ha, by simp⟩
    · rw [List.filter_cons_of_neg ha, ← ih]
      constructor
      · rintro ⟨before, after, h1, h2, h3⟩
        cases before with
        | nil => exact absurd h2 ((List.cons.inj h1).1 ▸ ha)
        | cons b before =>
          exact ⟨before, after, (List.cons.inj h1).2, h2, fun y hy => h3 y (by simp [hy])⟩
      · rintro ⟨before, after, rfl, h2, h3⟩
        refine ⟨a :: before, after, rfl, h2, ?_⟩
        intro y hy
        rcases List.mem_cons.1 hy with rfl | hy
        exacts [ha, h3 y hy]

theorem firstActive_iff (lib : ModelLibrary P) (m : ModelData P) (uv : Index) (first : ComponentMeshVertex) :
    FirstActive m uv first ↔ (activeCmvs (m.uniqueVertices lib) uv).head? = some first := by
  unfold FirstActive activeCmvs
  simp only [← isActive_iff]
  exact filter_first (fun cmv : ComponentMeshVertex => m.isActive cmv.component_id.id) _ _

theorem mem_activeCmvs (lib : ModelLibrary P) (m : ModelData P) (uv : Index) (cmv : ComponentMeshVertex) :
    cmv ∈ activeCmvs (m.uniqueVertices lib) uv ↔
      cmv ∈ m.componentMeshVertices uv ∧ IsActiveId m cmv.component_id.id := by
  unfold activeCmvs
  rw [List.mem_filter, ← isActive_iff]
  rfl

theorem differentPoints_iff {lib : ModelLibrary P} {m : ModelData P} {brep : Bool} (h : MeshesOk lib m)
    (ht : KnownTypes brep (m.uniqueVertices lib)) (uv : Index) :
    DifferentPoints lib.inexactEqual (m.uniqueVertices lib) uv ↔ PlainDifferentPoints lib m uv := by
  have hty : ∀ cmv ∈ activeCmvs (m.uniqueVertices lib) uv, cmv.component_id.type ≠ .other := by
    intro cmv hc
    exact (ht uv cmv ((mem_activeCmvs lib m uv cmv).1 hc).1).1
  constructor
  · rintro ⟨first, rest, h1, cmv, hc, h2⟩
    have hf : first ∈ activeCmvs (m.uniqueVertices lib) uv := by rw [h1]; simp
    have hm := (mem_activeCmvs lib m uv cmv).1 hc
    exact ⟨first, _, cmv, _, (firstActive_iff lib m uv first).2 (by rw [h1]; rfl),
      (isAt_iff h first (hty _ hf) _).2 rfl, hm.1, hm.2, (isAt_iff h cmv (hty _ hc) _).2 rfl, h2⟩
  · rintro ⟨first, p, cmv, q, h1, hp, h2, h3, hq, h4⟩
    have hc := (mem_activeCmvs lib m uv cmv).2 ⟨h2, h3⟩
    rw [firstActive_iff lib m] at h1
    obtain ⟨rest, hr⟩ : ∃ rest, activeCmvs (m.uniqueVertices lib) uv = first :: rest := by
      cases hl : activeCmvs (m.uniqueVertices lib) uv with
      | nil => rw [hl] at h1; cases h1
      | cons a l => rw [hl] at h1; cases h1; exact ⟨l, rfl⟩
    have hf : first ∈ activeCmvs (m.uniqueVertices lib) uv := by rw [hr]; simp
    rw [isAt_iff h first (hty _ hf)] at hp
    rw [isAt_iff h cmv (hty _ hc)] at hq
    subst hp; subst hq
    exact ⟨first, rest, hr, cmv, hc, h4⟩

theorem exactly_unique {α : Type} {lt : α → α → Prop} (hirr : ∀ a, ¬ lt a a) (hasym : ∀ a b, lt a b → ¬ lt b a)
    {p : α → Prop} {l l' : List α} (h : Exactly lt p l) (h' : Exactly lt p l') : l = l' := by
  have hn : ∀ {k : List α}, k.Pairwise lt → k.Nodup := by
    intro k hk
    refine hk.imp ?_
    rintro a b hab rfl
    exact hirr a hab
  have hp : l.Perm l' := (List.perm_ext_iff_of_nodup (hn h.1) (hn h'.1)).2 fun a => (h.2 a).trans (h'.2 a).symm
  exact hp.eq_of_pairwise (fun a b _ _ h1 h2 => absurd h2 (hasym a b h1)) h.1 h'.1

theorem activeUvs_exactly (lib : ModelLibrary P) (m : ModelData P) :
    Exactly (· < ·) (fun uv => uv < m.nbUniqueVertices ∧
      ∃ cmv ∈ m.componentMeshVertices uv, IsActiveId m cmv.component_id.id) (activeUvs (m.uniqueVertices lib)) := by
  constructor
  · exact List.pairwise_lt_range.filter _
  · intro uv
    unfold activeUvs
    rw [List.mem_filter, List.mem_range]
    refine and_congr Iff.rfl ?_
    rw [Bool.not_eq_true', ← Bool.not_eq_true, List.isEmpty_iff, ← ne_eq, List.ne_nil_iff_exists_cons]
    constructor
    · rintro ⟨a, l, hl⟩
      have := (mem_activeCmvs lib m uv a).1 (by rw [hl]; simp)
      exact ⟨a, this.1, this.2⟩
    · rintro ⟨cmv, h1, h2⟩
      have := (mem_activeCmvs lib m uv cmv).2 ⟨h1, h2⟩
      exact List.exists_cons_of_ne_nil (List.ne_nil_of_mem this)

theorem activePositions_eq (u : UVModel P) :
    List.Forall₂ (fun uv p => ∃ first, (activeCmvs u uv).head? = some first ∧ p = position u first)
      (activeUvs u) (activePositions u) := by
  unfold activeUvs activePositions
  generalize List.range u.nbUniqueVertices = l
  induction l with
  | nil => exact .nil
  | cons a l ih =>
    cases hc : activeCmvs u a with
    | nil =>
      rw [List.filter_cons_of_neg (by simp [hc]), List.filterMap_cons_none (by simp [hc])]
      exact ih
    | cons c cs =>
      rw [List.filter_cons_of_pos (by simp [hc]), List.filterMap_cons_some (by rw [hc]; rfl)]
      exact .cons ⟨c, by rw [hc]; rfl, rfl⟩ ih

theorem activePoints_iff {lib : ModelLibrary P} {m : ModelData P} {brep : Bool} (h : MeshesOk lib m)
    (ht : KnownTypes brep (m.uniqueVertices lib)) (uvs : List Index) (points : List P) :
    ActivePoints lib m uvs points ↔
      uvs = activeUvs (m.uniqueVertices lib) ∧ points = activePositions (m.uniqueVertices lib) := by
  have hpos : ∀ uv p, (∃ first, FirstActive m uv first ∧ IsAt lib m first p) ↔
      ∃ first, (activeCmvs (m.uniqueVertices lib) uv).head? = some first ∧
        p = position (m.uniqueVertices lib) first := by
    intro uv p
    refine exists_congr fun first => ?_
    rw [firstActive_iff lib m]
    refine and_congr_right fun hf => ?_
    exact isAt_iff h first (ht uv first ((mem_activeCmvs lib m uv first).1 (List.mem_of_head? hf)).1).1 p
  unfold ActivePoints
  simp only [hpos]
  constructor
  · rintro ⟨h1, h2⟩
    have hu := exactly_unique (lt := (· < ·)) (fun a => Nat.lt_irrefl a) (fun a b => Nat.lt_asymm) h1
      (activeUvs_exactly lib m)
    refine ⟨hu, ?_⟩
    rw [hu] at h2
    have h3 := activePositions_eq (m.uniqueVertices lib)
    generalize activeUvs (m.uniqueVertices lib) = l at h2 h3
    generalize activePositions (m.uniqueVertices lib) = l' at h3
    clear hu h1 hpos
    induction h2 generalizing l' with
    | nil => cases h3; rfl
    | cons hx _ ih =>
      cases h3 with
      | cons hy h3 =>
        obtain ⟨f, hf, rfl⟩ := hx
        obtain ⟨g, hg, rfl⟩ := hy
        rw [hf] at hg
        cases hg
        rw [ih _ h3]
  · rintro ⟨rfl, rfl⟩
    exact ⟨activeUvs_exactly lib m, activePositions_eq _⟩

theorem colocatedUvs_iff {lib : ModelLibrary P} {m : ModelData P} {brep : Bool} (h : MeshesOk lib m)
    (ht : KnownTypes brep (m.uniqueVertices lib)) :
    HasColocatedUniqueVertices lib m ↔ PlainColocatedUniqueVertices lib m := by
  unfold HasColocatedUniqueVertices PlainColocatedUniqueVertices
  constructor
  · intro hc
    exact ⟨_, _, (activePoints_iff h ht _ _).2 ⟨rfl, rfl⟩, hc⟩
  · rintro ⟨uvs, points, ha, hc⟩
    obtain ⟨rfl, rfl⟩ := (activePoints_iff h ht _ _).1 ha
    exact hc

/-! ### edges and facets of the BRep -/

theorem nbEmbeddings_pos (m : ModelData P) (kind : ComponentType) (id : Uuid) :
    0 < m.nbEmbeddingsOf kind id ↔ ∃ c ∈ m.embeddings id, c.type = kind := by
  unfold ModelData.nbEmbeddingsOf
  rw [List.length_pos_iff_exists_mem]
  simp only [List.mem_filter, beq_iff_eq]

theorem alone_iff (m : ModelData P) (kind : ComponentType) (id : Uuid) (v : Index) :
    AloneAtUniqueVertex m kind id v ↔ (m.componentMeshVertices (m.uniqueVertexId kind id v)).length ≤ 1 := by
  unfold AloneAtUniqueVertex
  simp [numberOf_iff]

theorem floatingEdge_iff (lib : ModelLibrary P) (m : ModelData P) (l : LineData P) :
    IsolatedEdgeLine (m.manifold lib) (m.manifoldLine l) ↔ FloatingEdge m l := by
  unfold FloatingEdge
  rw [← nbEmbeddings_pos, alone_iff, alone_iff]
  rfl

theorem floatingFacet_iff (lib : ModelLibrary P) (m : ModelData P) (s : FaceData P) :
    IsolatedFacetSurface (m.manifold lib) (m.manifoldSurface lib s) ↔ FloatingFacet m s := by
  unfold FloatingFacet
  rw [← nbEmbeddings_pos]
  simp only [alone_iff]
  rfl

/-- the interior polygon edges of the active Surfaces on the edge `e`, with their Surfaces -/
def interiorEdges (m : ModelData P) (e : Index × Index) : List (Uuid × PolygonEdge) :=
  (m.surfaces.filter fun s => s.active).flatMap fun s =>
    ((polygonEdges s.toSurfaceMesh).filter fun x =>
      (match s.polygonAdjacent x with
        | none => false
        | some adj => decide (x.1 ≤ adj)) &&
      decide (SameEdge (m.uniqueVertexId .surface s.id (polygonEdgeEnds s.toSurfaceMesh x).1,
        m.uniqueVertexId .surface s.id (polygonEdgeEnds s.toSurfaceMesh x).2) e)).map fun x => (s.id, x)

theorem interiorUses_eq (lib : ModelLibrary P) (m : ModelData P) (e : Index × Index) :
    interiorUses (m.manifold lib) e = (interiorEdges m e).map Prod.fst := by
  unfold interiorUses interiorEdges ModelData.manifold
  simp only [List.filter_map, List.flatMap_map, List.map_flatMap, List.map_map]
  rfl

theorem interiorEdges_nodup {lib : ModelLibrary P} {m : ModelData P} (h : MeshesOk lib m) (e : Index × Index) :
    (interiorEdges m e).Nodup := by
  have h3 := (meshes_nodup h).2.2.1
  unfold interiorEdges
  rw [List.nodup_flatMap]
  constructor
  · intro s _
    exact ((pairs_nodup' _ _).filter _).map (fun _ _ he => (Prod.mk.inj he).2)
  · have : (m.surfaces.filter fun s => s.active).Pairwise fun a b => a.id ≠ b.id :=
      (List.pairwise_map.1 h3).filter _
    refine this.imp ?_
    intro a b hab x hx hy
    obtain ⟨_, _, rfl⟩ := List.mem_map.1 hx
    obtain ⟨_, _, he⟩ := List.mem_map.1 hy
    exact hab (Prod.mk.inj he).1.symm

theorem mem_interiorEdges (m : ModelData P) (e : Index × Index) (i : Uuid) (x : PolygonEdge) :
    (i, x) ∈ interiorEdges m e ↔ ∃ s u v, InteriorEdge m s x u v ∧ s.id = i ∧ SameEdge (u, v) e := by
  unfold interiorEdges InteriorEdge
  simp only [List.mem_flatMap, List.mem_map, List.mem_filter, Prod.mk.injEq, Bool.and_eq_true, decide_eq_true_eq,
    numberOf_iff]
  have hadj : ∀ s : FaceData P, (match s.polygonAdjacent x with
        | none => false
        | some adj => decide (x.1 ≤ adj)) = true ↔ ∃ other, s.polygonAdjacent x = some other ∧ x.1 ≤ other := by
    intro s
    cases s.polygonAdjacent x <;> simp
  constructor
  · rintro ⟨s, ⟨hs, ha⟩, y, ⟨hy, hadj', hsame⟩, hid, rfl⟩
    refine ⟨s, _, _, ⟨hs, ha, (mem_pairs_iff _ _ _).1 hy, (hadj s).1 hadj', _, _, ⟨rfl, rfl⟩, rfl, rfl⟩, hid, hsame⟩
  · rintro ⟨s, u, v, ⟨hs, ha, hy, hadj', a, b, ⟨rfl, rfl⟩, rfl, rfl⟩, hid, hsame⟩
    exact ⟨s, ⟨hs, ha⟩, x, ⟨(mem_pairs_iff _ _ _).2 hy, (hadj s).2 hadj', hsame⟩, hid, rfl⟩

theorem twiceInterior_iff {lib : ModelLibrary P} {m : ModelData P} (h : MeshesOk lib m) :
    (∃ e, e.1 ≤ e.2 ∧ 2 ≤ (interiorUses (m.manifold lib) e).length) ↔ TwiceInterior m := by
  constructor
  · rintro ⟨e, _, h2⟩
    rw [interiorUses_eq, List.length_map] at h2
    obtain ⟨⟨i, x⟩, ⟨i', x'⟩, hne, hx, hx'⟩ := (two_members (interiorEdges_nodup h e)).1 h2
    obtain ⟨s, u, v, hi, rfl, hs⟩ := (mem_interiorEdges m e _ _).1 hx
    obtain ⟨s', u', v', hi', rfl, hs'⟩ := (mem_interiorEdges m e _ _).1 hx'
    refine ⟨s, x, u, v, s', x', u', v', hi, hi', ?_, ?_⟩
    · by_contra hc
      push Not at hc
      exact hne (by rw [hc.1, hc.2])
    · unfold SameEdge at hs hs'
      rcases hs with rfl | ⟨h1, h2⟩ <;> rcases hs' with h3 | ⟨h3, h4⟩
      · cases h3; exact .inl ⟨rfl, rfl⟩
      · exact .inr ⟨h4.symm, h3.symm⟩
      · subst h3; exact .inr ⟨h1, h2⟩
      · exact .inl ⟨h1.trans h3.symm, h2.trans h4.symm⟩
  · rintro ⟨s, x, u, v, s', x', u', v', hi, hi', hne, hs⟩
    have key : ∀ e : Index × Index, SameEdge (u, v) e → SameEdge (u', v') e →
        2 ≤ (interiorUses (m.manifold lib) e).length := by
      intro e h1 h2
      rw [interiorUses_eq, List.length_map, two_members (interiorEdges_nodup h e)]
      refine ⟨(s.id, x), (s'.id, x'), ?_, (mem_interiorEdges m e _ _).2 ⟨s, u, v, hi, rfl, h1⟩,
        (mem_interiorEdges m e _ _).2 ⟨s', u', v', hi', rfl, h2⟩⟩
      intro he
      rcases hne with hne | hne
      · exact hne (Prod.mk.inj he).1
      · exact hne (Prod.mk.inj he).2
    by_cases huv : u ≤ v
    · refine ⟨(u, v), huv, key _ (.inl rfl) ?_⟩
      rcases hs with ⟨rfl, rfl⟩ | ⟨rfl, rfl⟩
      · exact .inl rfl
      · exact .inr ⟨rfl, rfl⟩
    · refine ⟨(v, u), Nat.le_of_lt (Nat.lt_of_not_le huv), key _ (.inr ⟨rfl, rfl⟩) ?_⟩
      rcases hs with ⟨rfl, rfl⟩ | ⟨rfl, rfl⟩
      · exact .inr ⟨rfl, rfl⟩
      · exact .inl rfl

/-! ### intersections -/

theorem vertices_eq {n : Nat} {f : Nat → Index} {l : List Index} (h : l.length = n ∧ ∀ k, k < n → l[k]? = some (f k)) :
    l = (List.range n).map f := by
  apply List.ext_getElem?
  intro k
  by_cases hk : k < n
  · rw [h.2 k hk]
    simp [List.getElem?_map, List.getElem?_range hk]
  · rw [List.getElem?_eq_none (by omega), List.getElem?_eq_none (by simp; omega)]

theorem vertices_given (n : Nat) (f : Nat → Index) :
    ((List.range n).map f).length = n ∧ ∀ k, k < n → ((List.range n).map f)[k]? = some (f k) := by
  refine ⟨by simp, fun k hk => ?_⟩
  simp [List.getElem?_map, List.getElem?_range hk]

theorem given_surface (lib : ModelLibrary P) (m : ModelData P) (s : FaceData P) :
    GivenSurface lib m s (m.modelSurface lib s) where
  id := rfl
  active := rfl
  nbPolygons := rfl
  polygonVertices _ := vertices_given _ _
  nbVertices := rfl
  point v := (isPoint_iff lib s.points v _).2 rfl
  uniqueVertex v := (numberOf_iff m .surface s.id v _).2 rfl

theorem given_surface_eq {lib : ModelLibrary P} {m : ModelData P} {s : FaceData P} {r : ModelSurface P}
    (h : GivenSurface lib m s r) : r = m.modelSurface lib s := by
  obtain ⟨h1, h2, h3, h4, h5, h6, h7⟩ := h
  obtain ⟨id, active, nb, pv, nv, pt, uv⟩ := r
  simp only at h1 h2 h3 h4 h5 h6 h7
  subst h1; subst h2; subst h3; subst h5
  have h4' : pv = s.polygonVertices := funext fun p => vertices_eq (h4 p)
  have h6' : pt = ModelData.pointOf lib (some s.points) := funext fun v => (isPoint_iff lib s.points v _).1 (h6 v)
  have h7' : uv = m.uniqueVertexId .surface s.id := funext fun v => (numberOf_iff m .surface s.id v _).1 (h7 v)
  subst h4'; subst h6'; subst h7'
  rfl

theorem polygonsMeet_iff (lib : ModelLibrary P) (m : ModelData P) (brep : Bool)
    (Meet : ModelSurface P → ModelSurface P → List Index → List Index → Prop)
    (hm : ∀ s1 s2 a b c d e f, triangleTest (m.intersections lib brep) s1 s2 [a, b, c] [d, e, f] = .ok true ↔
      Meet s1 s2 [a, b, c] [d, e, f]) :
    (∃ s1 s2 p q, SurfacesIntersect (m.intersections lib brep) s1 s2 p q) ↔ PlainPolygonsMeet lib m Meet := by
  have hm' : ∀ s1 s2 p q t1 t2, t1 ∈ fan p → t2 ∈ fan q →
      (triangleTest (m.intersections lib brep) s1 s2 t1 t2 = .ok true ↔ Meet s1 s2 t1 t2) := by
    intro s1 s2 p q t1 t2 h1 h2
    obtain ⟨_, _, _, rfl⟩ := Inspector.Meet.fan_three p t1 h1
    obtain ⟨_, _, _, rfl⟩ := Inspector.Meet.fan_three q t2 h2
    exact hm _ _ _ _ _ _ _ _
  constructor
  · rintro ⟨r1, r2, p, q, h1, h2, h3, h4, h5, h6, h7, t1, ht1, t2, ht2, h8⟩
    obtain ⟨s1, hs1, rfl⟩ := List.mem_map.1 h1
    obtain ⟨s2, hs2, rfl⟩ := List.mem_map.1 h3
    exact ⟨s1, s2, _, _, p, q, hs1, h2, hs2, h4, given_surface lib m s1, given_surface lib m s2, h5, h6, h7,
      t1, ht1, t2, ht2, (hm' _ _ _ _ t1 t2 ht1 ht2).1 h8⟩
  · rintro ⟨s1, s2, r1, r2, p, q, hs1, h2, hs2, h4, hg1, hg2, h5, h6, h7, t1, ht1, t2, ht2, h8⟩
    rw [given_surface_eq hg1] at ht1 h8
    rw [given_surface_eq hg2] at ht2 h8
    exact ⟨m.modelSurface lib s1, m.modelSurface lib s2, p, q, List.mem_map_of_mem hs1, h2, List.mem_map_of_mem hs2, h4,
      h5, h6, h7, t1, ht1, t2, ht2, (hm' _ _ _ _ t1 t2 ht1 ht2).2 h8⟩

theorem lineMeets_iff (lib : ModelLibrary P) (m : ModelData P) (brep : Bool) :
    (∃ s l p e, LineMeetsSurface (m.intersections lib brep) s l p e) ↔ PlainLineMeetsSurface lib m := by
  constructor
  · rintro ⟨r, k, p, e, h1, h2, h3, h4, h5, h6, h7, t, ht, x, hx, h8⟩
    obtain ⟨s, hs, rfl⟩ := List.mem_map.1 h1
    obtain ⟨l, hl, rfl⟩ := List.mem_map.1 h3
    exact ⟨s, l, _, p, e, _, _, hs, h2, hl, h4, (nbEmbeddings_pos m .block l.id).1 (Nat.pos_of_ne_zero h5),
      given_surface lib m s, h6, h7, (isPoint_iff lib _ _ _).2 rfl, (isPoint_iff lib _ _ _).2 rfl, t, ht, x, hx, h8⟩
  · rintro ⟨s, l, r, p, e, a, b, hs, h2, hl, h4, h5, hg, h6, h7, ha, hb, t, ht, x, hx, h8⟩
    rw [given_surface_eq hg] at ht h8
    rw [isPoint_iff] at ha hb
    subst ha; subst hb
    exact ⟨m.modelSurface lib s, m.modelLine lib l, p, e, List.mem_map_of_mem hs, h2, List.mem_map_of_mem hl, h4,
      Nat.ne_of_gt ((nbEmbeddings_pos m .block l.id).2 h5), h6, h7, t, ht, x, hx, h8⟩

/-! ### topology -/

theorem given_topology {lib : ModelLibrary P} {m : ModelData P} (h : MeshesOk lib m) (rt : ModelRuntime) :
    GivenTopology m (m.topology rt) := by
  obtain ⟨_, h2, h3, _⟩ := meshes_nodup h
  refine { corners := rfl, lines := rfl, surfaces := rfl, blocks := rfl, others := rfl, nbUniqueVertices := rfl,
           componentMeshVertices := rfl, uniqueVertex := rfl, isBoundary := rfl, isInternal := rfl,
           embeddings := rfl, incidences := rfl, boundaries := rfl, isVertexOnBorder := rfl, surfaceEdges := rfl,
           blockEdges := rfl, blockPolygons := rfl, edgeVertices := ?_, noEdge := ?_, polygonVertices := ?_,
           noPolygon := ?_ }
  · intro l hl e
    show ((m.lines.find? fun k => k.id == l.id).map _).getD [] = _
    rw [find_id m.lines LineData.id h2 l hl]
    rfl
  · intro id hid e
    show ((m.lines.find? fun k => k.id == id).map _).getD [] = _
    rw [find_none m.lines LineData.id id hid]
    rfl
  · intro s hs p
    have : (m.topology rt).polygonVertices s.id p = s.polygonVertices p := by
      show ((m.surfaces.find? fun k => k.id == s.id).map _).getD [] = _
      rw [find_id m.surfaces FaceData.id h3 s hs]
      rfl
    rw [this]
    exact vertices_given _ _
  · intro id hid e
    show ((m.surfaces.find? fun k => k.id == id).map _).getD [] = _
    rw [find_none m.surfaces FaceData.id id hid]
    rfl

/-- The texts and the iteration order apart, a topology is determined by the model. -/
theorem given_topology_eq {lib : ModelLibrary P} {m : ModelData P} (h : MeshesOk lib m) (rt : ModelRuntime)
    {t : TopologyModel} (ht : GivenTopology m t) :
    ∃ i u c n p v, t = { m.topology rt with
      iterate := i, uuidString := u, componentString := c, nameOf := n, pointString := p, cmvString := v } := by
  refine ⟨t.iterate, t.uuidString, t.componentString, t.nameOf, t.pointString, t.cmvString, ?_⟩
  have hg := given_topology h rt
  have hc : t.components = (m.topology rt).components := by
    funext k
    cases k
    · rw [ht.corners, hg.corners]
    · rw [ht.lines, hg.lines]
    · rw [ht.surfaces, hg.surfaces]
    · rw [ht.blocks, hg.blocks]
    · rw [ht.others, hg.others]
  have hl : t.lineEdgeVertices = (m.topology rt).lineEdgeVertices := by
    funext id e
    by_cases hex : ∃ l ∈ m.lines, l.id = id
    · obtain ⟨l, hl, rfl⟩ := hex
      rw [ht.edgeVertices l hl, hg.edgeVertices l hl]
    · have : ∀ l ∈ m.lines, l.id ≠ id := fun l hl he => hex ⟨l, hl, he⟩
      rw [ht.noEdge id this, hg.noEdge id this]
  have hp : t.polygonVertices = (m.topology rt).polygonVertices := by
    funext id e
    by_cases hex : ∃ s ∈ m.surfaces, s.id = id
    · obtain ⟨s, hs, rfl⟩ := hex
      rw [vertices_eq (ht.polygonVertices s hs e), vertices_eq (hg.polygonVertices s hs e)]
    · have : ∀ s ∈ m.surfaces, s.id ≠ id := fun s hs he => hex ⟨s, hs, he⟩
      rw [ht.noPolygon id this, hg.noPolygon id this]
  have h1 := ht.nbUniqueVertices
  have h2 := ht.componentMeshVertices
  have h3 := ht.uniqueVertex
  have h4 := ht.isBoundary
  have h5 := ht.isInternal
  have h6 := ht.embeddings
  have h7 := ht.incidences
  have h8 := ht.boundaries
  have h9 := ht.isVertexOnBorder
  have h10 := ht.surfaceEdges
  have h11 := ht.blockEdges
  have h12 := ht.blockPolygons
  clear ht hg
  cases t
  simp only at h1 h2 h3 h4 h5 h6 h7 h8 h9 h10 h11 h12 hc hl hp
  subst h1; subst h2; subst h3; subst h4; subst h5; subst h6; subst h7; subst h8; subst h9; subst h10; subst h11
  subst h12; subst hc; subst hl; subst hp
  rfl

theorem topology_iff {lib : ModelLibrary P} {m : ModelData P} (h : MeshesOk lib m) (rt : ModelRuntime)
    (D : TopologyModel → Prop)
    (hD : ∀ t i u c n p v, D { t with
      iterate := i, uuidString := u, componentString := c, nameOf := n, pointString := p, cmvString := v } → D t) :
    D (m.topology rt) ↔ ∃ t, GivenTopology m t ∧ D t := by
  constructor
  · exact fun hd => ⟨_, given_topology h rt, hd⟩
  · rintro ⟨t, ht, hd⟩
    obtain ⟨i, u, c, n, p, v, rfl⟩ := given_topology_eq h rt ht
    exact hD _ _ _ _ _ _ _ hd

/-! ### the boundaries of the Blocks do not depend on texts -/

theorem loop_congr {t t' : TopologyModel} (hb : t'.boundaries = t.boundaries) (hi : t'.incidences = t.incidences)
    (fuel : Nat) (processed queue : List Uuid) (skip : Nat) :
    closedLinkedLoop t' fuel processed queue skip = closedLinkedLoop t fuel processed queue skip := by
  induction fuel generalizing processed queue skip with
  | zero => rfl
  | succ fuel ih =>
    cases queue with
    | nil => rfl
    | cons s rest =>
      have hf : findLinkedProcessedSurface t' s processed = findLinkedProcessedSurface t s processed := by
        unfold findLinkedProcessedSurface
        rw [hb, hi]
        rfl
      unfold closedLinkedLoop
      rw [hf, ih, ih, ih]

theorem parts_congr {t t' : TopologyModel} (hb : t'.boundaries = t.boundaries) (hi : t'.incidences = t.incidences)
    (fuel n : Nat) (queue : List Uuid) :
    linkedBoundaryParts t' fuel n queue = linkedBoundaryParts t fuel n queue := by
  induction n generalizing queue with
  | zero => rfl
  | succ n ih =>
    cases queue with
    | nil => rfl
    | cons s rest =>
      have hc : closedLinkedSurfaces t' fuel (s :: rest) = closedLinkedSurfaces t fuel (s :: rest) :=
        loop_congr hb hi _ _ _ _
      unfold linkedBoundaryParts
      rw [hc]
      simp only [ih]

theorem encloses_congr (t : TopologyModel) (i u c n p v) (g : BlockGeometry) (block : Uuid) :
    BoundaryEncloses { t with
      iterate := i, uuidString := u, componentString := c, nameOf := n, pointString := p, cmvString := v } g block ↔
    BoundaryEncloses t g block := by
  unfold BoundaryEncloses
  simp only [parts_congr (t := t) (t' := { t with
    iterate := i, uuidString := u, componentString := c, nameOf := n, pointString := p, cmvString := v }) rfl rfl]
  rfl

theorem blocks_congr (t : TopologyModel) (i u c n p v) (o : BlocksOracle) (h : BlocksDefect { t with
      iterate := i, uuidString := u, componentString := c, nameOf := n, pointString := p, cmvString := v } o) :
    BlocksDefect t o := by
  unfold BlocksDefect at h ⊢
  simp only [encloses_congr] at h
  exact h

/-! ### the models -/

theorem sectionDefect_iff {lib : ModelLibrary P} {m : ModelData P} {brep : Bool} (h : MeshesOk lib m)
    (ht : KnownTypes brep (m.uniqueVertices lib)) (rt : ModelRuntime) :
    SectionDefect lib rt m ↔ PlainSectionDefect lib m := by
  unfold SectionDefect PlainSectionDefect
  rw [← topology_iff h rt SectionTopologyDefect (fun t i u c n p v hd => hd)]
  rw [colocatedUvs_iff h ht, polygonsMeet_iff lib m false _ (Meet.section_iff lib.geometry h.positions)]
  simp only [differentPoints_iff h ht, lineDefect_iff, surfaceDefect_iff]
  rfl

theorem brepDefect_iff {lib : ModelLibrary P} {m : ModelData P} {brep : Bool} (h : MeshesOk lib m)
    (ht : KnownTypes brep (m.uniqueVertices lib)) (rt : ModelRuntime) :
    BRepDefect lib rt m ↔ PlainBRepDefect lib m := by
  unfold BRepDefect PlainBRepDefect PlainBRepMeshDefect
  rw [← topology_iff h rt (fun t => BRepTopologyDefect t m.blocksOracle) ?_]
  rw [colocatedUvs_iff h ht, polygonsMeet_iff lib m true _ (Meet.brep_iff lib.geometry h.positions), lineMeets_iff,
    twiceInterior_iff h]
  · simp only [differentPoints_iff h ht, lineDefect_iff, surfaceDefect_iff, blockDefect_iff, floatingEdge_iff,
      floatingFacet_iff, or_assoc]
  · rintro t i u c n p v (hd | hd | hd | hd | hd | hd | hd)
    exacts [.inl hd, .inr (.inl hd), .inr (.inr (.inl hd)), .inr (.inr (.inr (.inl hd))),
      .inr (.inr (.inr (.inr (.inl hd)))), .inr (.inr (.inr (.inr (.inr (.inl hd))))),
      .inr (.inr (.inr (.inr (.inr (.inr (blocks_congr t i u c n p v _ hd))))))]

theorem brepDefectBesideLines_iff {lib : ModelLibrary P} {m : ModelData P} {brep : Bool} (h : MeshesOk lib m)
    (ht : KnownTypes brep (m.uniqueVertices lib)) (rt : ModelRuntime) :
    BRepDefectBesideLines lib rt m ↔ PlainBRepDefectBesideLines lib m := by
  have hne : NoEmptyLine (m.intersections lib true) ↔ ∀ l ∈ m.lines, l.active = true → l.nbEdges ≠ 0 := by
    unfold NoEmptyLine
    constructor
    · exact fun hl l hm => hl _ (List.mem_map_of_mem hm)
    · intro hl k hk
      obtain ⟨l, hm, rfl⟩ := List.mem_map.1 hk
      exact hl l hm
  unfold BRepDefectBesideLines PlainBRepDefectBesideLines PlainBRepMeshDefect
  rw [← topology_iff h rt (fun t => OtherTopologyDefect t m.blocksOracle) ?_]
  rw [colocatedUvs_iff h ht, polygonsMeet_iff lib m true _ (Meet.brep_iff lib.geometry h.positions), lineMeets_iff,
    twiceInterior_iff h, hne]
  · simp only [differentPoints_iff h ht, lineDefect_iff, surfaceDefect_iff, blockDefect_iff, floatingEdge_iff,
      floatingFacet_iff, or_assoc]
  · rintro t i u c n p v (hd | hd | hd | hd | hd | hd)
    exacts [.inl hd, .inr (.inl hd), .inr (.inr (.inl hd)), .inr (.inr (.inr (.inl hd))),
      .inr (.inr (.inr (.inr (.inl hd)))),
      .inr (.inr (.inr (.inr (.inr (blocks_congr t i u c n p v _ hd)))))]

theorem unreadable_iff {lib : ModelLibrary P} {m : ModelData P} (h : MeshesOk lib m) (rt : ModelRuntime) :
    LinesUnreadable (m.topology rt) ↔ PlainUnreadable m :=
  topology_iff h rt LinesUnreadable (fun _ _ _ _ _ _ _ hd => hd)

/-! ### the hypotheses do not depend on the execution -/

theorem sectionOk_any {lib : ModelLibrary P} {rt : ModelRuntime} {m : ModelData P} {c : Candidates P}
    (rt' : ModelRuntime) (h : SectionOk lib rt m c) : SectionOk lib rt' m c where
  meshes := h.meshes
  noBlock := h.noBlock
  types := h.types
  trees := h.trees
  tests := h.tests
  topology := ⟨h.topology.1, h.topology.2, h.topology.3, h.topology.4, h.topology.5⟩
  embeddings := h.embeddings

theorem brepOk_any {lib : ModelLibrary P} {rt : ModelRuntime} {m : ModelData P} {c : Candidates P}
    (rt' : ModelRuntime) (ho : ∀ map, (rt'.aroundOrder map).Perm map) (h : BRepOk lib rt m c) :
    BRepOk lib rt' m c where
  meshesKnown := MeshesOk.toMeshesKnown (h.meshes)
  blockWalks := MeshesOk.blockWalks (h.meshes)
  types := h.types
  trees := h.trees
  nbModelEdges := h.nbModelEdges
  topology := ⟨h.topology.1, h.topology.2, h.topology.3, h.topology.4, h.topology.5⟩
  around := { h.around with
    iterate := ho }
  coherent := h.coherent
  surfaceEmbeddings := h.surfaceEmbeddings
  firstEdges := h.firstEdges
  counts := h.counts
  graph := h.graph
  geometry := h.geometry
  rays := h.rays
  modelBoundaries := h.modelBoundaries

end Inspector.Plain
