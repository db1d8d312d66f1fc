import Verif.Spec.SamePlace
namespace Inspector.SamePlace
open Spec
variable {P : Type}

theorem filterMap_filter {α β : Type} (f : α → Option β) (p : α → Bool) (hp : ∀ x, p x = (f x).isSome) (l : List α) :
    ∀ (a : Nat) (x : α), (l.filter p)[a]? = some x → (l.filterMap f)[a]? = f x := by
  induction l with
  | nil => intro a x h; cases h
  | cons y l ih =>
    intro a x h
    cases hy : f y with
    | none =>
      rw [List.filter_cons_of_neg (by rw [hp, hy]; exact Bool.false_ne_true)] at h
      rw [List.filterMap_cons_none hy]
      exact ih a x h
    | some z =>
      rw [List.filter_cons_of_pos (by rw [hp, hy]; rfl)] at h
      rw [List.filterMap_cons_some hy]
      cases a with
      | zero =>
        simp only [List.getElem?_cons_zero, Option.some.injEq] at h ⊢
        rw [← h, hy]
      | succ a =>
        simp only [List.getElem?_cons_succ] at h ⊢
        exact ih a x h

theorem find_id {α : Type} (id : α → Uuid) (l : List α) (hn : (l.map id).Nodup) (x : α) (hx : x ∈ l) :
    l.find? (fun c => id c == id x) = some x := by
  induction l with
  | nil => cases hx
  | cons y l ih =>
    rw [List.map_cons, List.nodup_cons] at hn
    rw [List.find?_cons]
    rcases List.mem_cons.1 hx with rfl | hx
    · simp
    · have hne : (id y == id x) = false := by
        rw [beq_eq_false_iff_ne]
        intro he
        exact hn.1 (he ▸ List.mem_map_of_mem hx)
      rw [hne]
      exact ih hn.2 hx

/-- the vertex is active, and is where it is said -/
theorem vertex_position (lib : ModelLibrary P) (m : ModelData P) (hids : (m.corners.map CornerData.id ++
    m.lines.map LineData.id ++ m.surfaces.map FaceData.id ++ m.blocks.map VolumeData.id).Nodup)
    (x : ComponentMeshVertex) (p : P) (h : VertexAt m x p) :
    m.isActive x.component_id.id = true ∧ position (m.uniqueVertices lib) x = p := by
  obtain ⟨h123, n4, _⟩ := List.nodup_append.1 hids
  obtain ⟨h12, n3, _⟩ := List.nodup_append.1 h123
  obtain ⟨n1, n2, _⟩ := List.nodup_append.1 h12
  cases h with
  | corner c v _ hc ha hp =>
    refine ⟨?_, ?_⟩
    · unfold ModelData.isActive
      simp only [Bool.or_eq_true, List.any_eq_true, Bool.and_eq_true, beq_iff_eq]
      exact Or.inl (Or.inl (Or.inl ⟨c, hc, rfl, ha⟩))
    · show ModelData.pointOf lib ((m.corners.find? fun d => d.id == c.id).map CornerData.points) v = p
      rw [find_id CornerData.id m.corners n1 c hc]
      show (c.points[v]?).getD lib.origin = p
      rw [hp]; rfl
  | line c v _ hc ha hp =>
    refine ⟨?_, ?_⟩
    · unfold ModelData.isActive
      simp only [Bool.or_eq_true, List.any_eq_true, Bool.and_eq_true, beq_iff_eq]
      exact Or.inl (Or.inl (Or.inr ⟨c, hc, rfl, ha⟩))
    · show ModelData.pointOf lib ((m.lines.find? fun d => d.id == c.id).map fun d => d.points) v = p
      rw [find_id LineData.id m.lines n2 c hc]
      show (c.points[v]?).getD lib.origin = p
      rw [hp]; rfl
  | surface c v _ hc ha hp =>
    refine ⟨?_, ?_⟩
    · unfold ModelData.isActive
      simp only [Bool.or_eq_true, List.any_eq_true, Bool.and_eq_true, beq_iff_eq]
      exact Or.inl (Or.inr ⟨c, hc, rfl, ha⟩)
    · show ModelData.pointOf lib ((m.surfaces.find? fun d => d.id == c.id).map fun d => d.points) v = p
      rw [find_id FaceData.id m.surfaces n3 c hc]
      show (c.points[v]?).getD lib.origin = p
      rw [hp]; rfl
  | block c v _ hc ha hp =>
    refine ⟨?_, ?_⟩
    · unfold ModelData.isActive
      simp only [Bool.or_eq_true, List.any_eq_true, Bool.and_eq_true, beq_iff_eq]
      exact Or.inr ⟨c, hc, rfl, ha⟩
    · show ModelData.pointOf lib ((m.blocks.find? fun d => d.id == c.id).map fun d => d.points) v = p
      rw [find_id VolumeData.id m.blocks n4 c hc]
      show (c.points[v]?).getD lib.origin = p
      rw [hp]; rfl

/-- a component whose uuid is said active is active -/
theorem active_of (m : ModelData P) (hids : (m.corners.map CornerData.id ++
    m.lines.map LineData.id ++ m.surfaces.map FaceData.id ++ m.blocks.map VolumeData.id).Nodup) (id : Uuid)
    (ha : m.isActive id = true) (a : Bool) (h : (id, a) ∈ m.corners.map (fun c => (c.id, c.active)) ++
      m.lines.map (fun c => (c.id, c.active)) ++ m.surfaces.map (fun c => (c.id, c.active)) ++
      m.blocks.map (fun c => (c.id, c.active))) : a = true := by
  have h' : (id, true) ∈ m.corners.map (fun c => (c.id, c.active)) ++
      m.lines.map (fun c => (c.id, c.active)) ++ m.surfaces.map (fun c => (c.id, c.active)) ++
      m.blocks.map (fun c => (c.id, c.active)) := by
    unfold ModelData.isActive at ha
    simp only [Bool.or_eq_true, List.any_eq_true, Bool.and_eq_true, beq_iff_eq] at ha
    simp only [List.mem_append, List.mem_map, Prod.mk.injEq]
    exact ha
  have hn : ((m.corners.map (fun c => (c.id, c.active)) ++
      m.lines.map (fun c => (c.id, c.active)) ++ m.surfaces.map (fun c => (c.id, c.active)) ++
      m.blocks.map (fun c => (c.id, c.active))).map Prod.fst).Nodup := by
    simp only [List.map_append, List.map_map]
    exact hids
  generalize m.corners.map (fun c => (c.id, c.active)) ++
      m.lines.map (fun c => (c.id, c.active)) ++ m.surfaces.map (fun c => (c.id, c.active)) ++
      m.blocks.map (fun c => (c.id, c.active)) = l at h h' hn
  induction l with
  | nil => cases h
  | cons x l ih =>
    rw [List.map_cons, List.nodup_cons] at hn
    rcases List.mem_cons.1 h with rfl | h1
    · rcases List.mem_cons.1 h' with h2 | h2
      · exact (congrArg Prod.snd h2).symm
      · exact absurd (List.mem_map_of_mem (f := Prod.fst) h2) hn.1
    · rcases List.mem_cons.1 h' with rfl | h2
      · exact absurd (List.mem_map_of_mem (f := Prod.fst) h1) hn.1
      · exact ih h1 h2 hn.2

/-- an existing link to an active component is a vertex of it -/
theorem vertex_of_exists (lib : ModelLibrary P) (m : ModelData P) (rt : ModelRuntime)
    (hids : (m.corners.map CornerData.id ++
    m.lines.map LineData.id ++ m.surfaces.map FaceData.id ++ m.blocks.map VolumeData.id).Nodup)
    (kinds : List ComponentType) (x : ComponentMeshVertex) (he : CmvExists (m.topology rt) kinds x)
    (ha : m.isActive x.component_id.id = true) : VertexAt m x (position (m.uniqueVertices lib) x) := by
  have at_point : ∀ (l : List P) (v : Index), v < l.length → l[v]? = some ((l[v]?).getD lib.origin) := by
    intro l v h
    rw [List.getElem?_eq_getElem h]
    rfl
  obtain ⟨_, c, hc, hid, hv⟩ := he
  have hact := active_of m hids _ ha
  suffices h : ∃ p, VertexAt m x p by
    obtain ⟨p, hp⟩ := h
    rw [(vertex_position lib m hids x p hp).2]
    exact hp
  obtain ⟨⟨kind, id⟩, v⟩ := x
  cases kind with
  | other => cases hc
  | corner =>
    obtain ⟨d, hd, rfl⟩ := List.mem_map.1 hc
    obtain rfl : d.id = id := hid
    refine ⟨_, .corner d v _ hd (hact _ ?_) (at_point _ v hv)⟩
    simp only [List.mem_append]
    exact Or.inl (Or.inl (Or.inl (List.mem_map_of_mem (f := fun c => (c.id, c.active)) hd)))
  | line =>
    obtain ⟨d, hd, rfl⟩ := List.mem_map.1 hc
    obtain rfl : d.id = id := hid
    refine ⟨_, .line d v _ hd (hact _ ?_) (at_point _ v hv)⟩
    simp only [List.mem_append]
    exact Or.inl (Or.inl (Or.inr (List.mem_map_of_mem (f := fun c => (c.id, c.active)) hd)))
  | surface =>
    obtain ⟨d, hd, rfl⟩ := List.mem_map.1 hc
    obtain rfl : d.id = id := hid
    refine ⟨_, .surface d v _ hd (hact _ ?_) (at_point _ v hv)⟩
    simp only [List.mem_append]
    exact Or.inl (Or.inr (List.mem_map_of_mem (f := fun c => (c.id, c.active)) hd))
  | block =>
    obtain ⟨d, hd, rfl⟩ := List.mem_map.1 hc
    obtain rfl : d.id = id := hid
    refine ⟨_, .block d v _ hd (hact _ ?_) (at_point _ v hv)⟩
    simp only [List.mem_append]
    exact Or.inr (List.mem_map_of_mem (f := fun c => (c.id, c.active)) hd)

/-- the first active vertex of a unique vertex is at the place of each of them -/
theorem first_near (lib : ModelLibrary P) (near : P → P → Prop) (m : ModelData P) (hl : PlacesOk lib m near)
    (uv : Index) (hd : ¬ DifferentPoints lib.inexactEqual (m.uniqueVertices lib) uv)
    (hex : ∀ x ∈ activeCmvs (m.uniqueVertices lib) uv, VertexAt m x (position (m.uniqueVertices lib) x))
    (x : ComponentMeshVertex) (hx : x ∈ activeCmvs (m.uniqueVertices lib) uv) :
    ∃ first, (activeCmvs (m.uniqueVertices lib) uv).head? = some first ∧
      near (position (m.uniqueVertices lib) first) (position (m.uniqueVertices lib) x) := by
  cases hc : activeCmvs (m.uniqueVertices lib) uv with
  | nil => rw [hc] at hx; cases hx
  | cons first rest =>
    refine ⟨first, rfl, ?_⟩
    rw [← hl.equal _ _ _ _ (hex first (by rw [hc]; exact List.mem_cons_self)) (hex x hx)]
    by_contra hne
    exact hd ⟨first, rest, hc, x, hx, by simpa using hne⟩

/-- the statement, from the absence of the defects -/
theorem correspond (lib : ModelLibrary P) (near : P → P → Prop) (m : ModelData P) (rt : ModelRuntime)
    (hl : PlacesOk lib m near) (hids : (m.corners.map CornerData.id ++
    m.lines.map LineData.id ++ m.surfaces.map FaceData.id ++ m.blocks.map VolumeData.id).Nodup)
    (hk : LinksKept m) (kinds : List ComponentType) (hb : BijectivelyLinked (m.topology rt) kinds)
    (h1 : ¬ ∃ uv, uv < m.nbUniqueVertices ∧ DifferentPoints lib.inexactEqual (m.uniqueVertices lib) uv)
    (h2 : ¬ HasColocatedUniqueVertices lib m) (x y : ComponentMeshVertex) (p q : P) (hx : VertexAt m x p)
    (hy : VertexAt m y q) (u u' : Index) (hu : m.uniqueVertex x = some u) (hu' : m.uniqueVertex y = some u') :
    u = u' ↔ near p q := by
  have hex : ∀ u < m.nbUniqueVertices, ∀ x ∈ activeCmvs (m.uniqueVertices lib) u,
      VertexAt m x (position (m.uniqueVertices lib) x) := by
    intro u hu x hx
    obtain ⟨hm, ha⟩ := List.mem_filter.1 hx
    exact vertex_of_exists lib m rt hids kinds x ((hb u hu).2 x hm).1 ha
  have mem : ∀ x p u, VertexAt m x p → m.uniqueVertex x = some u → u < m.nbUniqueVertices ∧
      x ∈ activeCmvs (m.uniqueVertices lib) u ∧ position (m.uniqueVertices lib) x = p := by
    intro x p u hx hu
    obtain ⟨hlt, hm⟩ := hk x u hu
    obtain ⟨ha, hp⟩ := vertex_position lib m hids x p hx
    exact ⟨hlt, List.mem_filter.2 ⟨hm, ha⟩, hp⟩
  obtain ⟨a1, a2, a3⟩ := mem x p u hx hu
  obtain ⟨b1, b2, b3⟩ := mem y q u' hy hu'
  obtain ⟨f, f1, f2⟩ := first_near lib near m hl u (fun h => h1 ⟨u, a1, h⟩) (hex u a1) x a2
  obtain ⟨g, g1, g2⟩ := first_near lib near m hl u' (fun h => h1 ⟨u', b1, h⟩) (hex u' b1) y b2
  rw [a3] at f2
  rw [b3] at g2
  constructor
  · rintro rfl
    rw [f1] at g1
    obtain rfl := Option.some.inj g1
    exact hl.equivalence.trans (hl.equivalence.symm f2) g2
  · intro hn
    by_contra hne
    refine h2 ?_
    have ref : ∀ (u : Index) (f x : ComponentMeshVertex), u < m.nbUniqueVertices →
        x ∈ activeCmvs (m.uniqueVertices lib) u → (activeCmvs (m.uniqueVertices lib) u).head? = some f →
        ∃ a : Nat, (activeUvs (m.uniqueVertices lib))[a]? = some u ∧
          (activePositions (m.uniqueVertices lib))[a]? = some (position (m.uniqueVertices lib) f) := by
      intro u f x hu hx hf
      have hmem : u ∈ activeUvs (m.uniqueVertices lib) := by
        refine List.mem_filter.2 ⟨List.mem_range.2 hu, ?_⟩
        cases hc : activeCmvs (m.uniqueVertices lib) u with
        | nil => rw [hc] at hx; cases hx
        | cons => rfl
      obtain ⟨a, ha⟩ := List.mem_iff_getElem?.1 hmem
      refine ⟨a, ha, ?_⟩
      have := filterMap_filter (fun uv => (activeCmvs (m.uniqueVertices lib) uv).head?.map (position (m.uniqueVertices lib)))
        (fun uv => !(activeCmvs (m.uniqueVertices lib) uv).isEmpty) (fun uv => by
          cases activeCmvs (m.uniqueVertices lib) uv <;> rfl) _ a u ha
      rw [hf] at this
      exact this
    obtain ⟨i, i1, i2⟩ := ref u f x a1 a2 f1
    obtain ⟨j, j1, j2⟩ := ref u' g y b1 b2 g1
    refine ⟨i, j, u, u', i1, j1, hne, (hl.search i j _ _ i2 j2).2 ?_⟩
    exact hl.equivalence.trans f2 (hl.equivalence.trans hn (hl.equivalence.symm g2))

/-- a vertex of an active component is one of the vertices whose link is read -/
theorem linked_of_no_defect (m : ModelData P) (rt : ModelRuntime) (kinds : List ComponentType)
    (h : ¬ HasUnlinkedVertex (m.topology rt) kinds) (x : ComponentMeshVertex) (p : P) (hx : VertexAt m x p)
    (hkind : x.component_id.type ∈ kinds) : ∃ u, m.uniqueVertex x = some u := by
  cases hu : m.uniqueVertex x with
  | some u => exact ⟨u, rfl⟩
  | none =>
    exfalso
    have lt : ∀ (l : List P) (v : Index), l[v]? = some p → v < l.length := fun l v h =>
      (List.getElem?_eq_some_iff.1 h).1
    refine h ⟨_, hkind, ?_⟩
    cases hx with
    | corner c v _ hc ha hp => exact ⟨_, List.mem_map_of_mem hc, ha, v, lt _ v hp, hu⟩
    | line c v _ hc ha hp => exact ⟨_, List.mem_map_of_mem hc, ha, v, lt _ v hp, hu⟩
    | surface c v _ hc ha hp => exact ⟨_, List.mem_map_of_mem hc, ha, v, lt _ v hp, hu⟩
    | block c v _ hc ha hp => exact ⟨_, List.mem_map_of_mem hc, ha, v, lt _ v hp, hu⟩

end Inspector.SamePlace
