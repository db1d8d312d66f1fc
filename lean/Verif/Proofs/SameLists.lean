import Mathlib.Data.List.Forall2
import Verif.Spec.SameLists
import Verif.Proofs.Plain
/-
Two inspections of the same object tell the same issues (C101, C102).
-/
namespace Inspector.Plain
open Spec
variable {P : Type}

/-! ### lists -/

theorem exactly_lt_eq {p : Index → Prop} {l l' : List Index} (h : Exactly (· < ·) p l) (h' : Exactly (· < ·) p l') :
    l = l' :=
  exactly_unique (fun a => Nat.lt_irrefl a) (fun _ _ => Nat.lt_asymm) h h'

theorem exactly_lex_eq {p : Nat × Nat → Prop} {l l' : List (Nat × Nat)} (h : Exactly LexLt p l)
    (h' : Exactly LexLt p l') : l = l' := by
  refine exactly_unique ?_ ?_ h h'
  · rintro ⟨a, b⟩ hab
    unfold LexLt at hab
    simp only at hab
    omega
  · rintro ⟨a, b⟩ ⟨c, d⟩ h1 h2
    unfold LexLt at h1 h2
    simp only at h1 h2
    omega

theorem exactly_perm {α : Type} {lt : α → α → Prop} (hirr : ∀ a, ¬ lt a a) {p : α → Prop} {l l' : List α}
    (h : Exactly lt p l) (h' : Exactly lt p l') : l.Perm l' := by
  have hn : ∀ {k : List α}, k.Pairwise lt → k.Nodup := by
    intro k hk
    refine hk.imp ?_
    rintro a b hab rfl
    exact hirr a hab
  exact (List.perm_ext_iff_of_nodup (hn h.1) (hn h'.1)).2 fun a => (h.2 a).trans (h'.2 a).symm

theorem sorted_ext {l l' : List Index} (h : l.Pairwise (· < ·)) (h' : l'.Pairwise (· < ·)) (hm : ∀ x, x ∈ l ↔ x ∈ l') :
    l = l' :=
  exactly_lt_eq (p := (· ∈ l')) ⟨h, hm⟩ ⟨h', fun _ => Iff.rfl⟩

/-- groups telling which pairs of `dom` are together are determined up to their order -/
theorem groups_perm {dom : Index → Prop} {rel : Index → Index → Prop} {groups groups' : List (List Index)}
    (h1 : ∀ g ∈ groups, 2 ≤ g.length ∧ g.Pairwise (· < ·) ∧ ∀ i ∈ g, dom i)
    (h2 : groups.Pairwise fun g h => ∀ i ∈ g, i ∉ h)
    (h3 : ∀ i j, dom i → dom j → i ≠ j → ((∃ g ∈ groups, i ∈ g ∧ j ∈ g) ↔ rel i j))
    (h1' : ∀ g ∈ groups', 2 ≤ g.length ∧ g.Pairwise (· < ·) ∧ ∀ i ∈ g, dom i)
    (h2' : groups'.Pairwise fun g h => ∀ i ∈ g, i ∉ h)
    (h3' : ∀ i j, dom i → dom j → i ≠ j → ((∃ g ∈ groups', i ∈ g ∧ j ∈ g) ↔ rel i j)) :
    groups.Perm groups' := by
  have nodup : ∀ {gs : List (List Index)}, (∀ g ∈ gs, 2 ≤ g.length ∧ g.Pairwise (· < ·) ∧ ∀ i ∈ g, dom i) →
      gs.Pairwise (fun g h => ∀ i ∈ g, i ∉ h) → gs.Nodup := by
    intro gs hg hp
    refine hp.imp_of_mem ?_
    rintro a b ha _ hab rfl
    have := (hg a ha).1
    cases a with
    | nil => simp at this
    | cons x a => exact hab x (by simp) (by simp)
  have disj : ∀ {gs : List (List Index)}, gs.Pairwise (fun g h => ∀ i ∈ g, i ∉ h) → ∀ a ∈ gs, ∀ b ∈ gs, ∀ i, i ∈ a →
      i ∈ b → a = b := by
    intro gs hp a ha b hb i hia hib
    by_contra hne
    exact List.Pairwise.forall_of_forall_of_flip (R := fun x y => x ≠ y → ∀ i ∈ x, i ∉ y)
      (fun x _ hxx => absurd rfl hxx) (by refine hp.imp ?_; exact fun hxy _ => hxy)
      (by refine hp.imp ?_; exact fun hxy _ i hi hi' => hxy i hi' hi) ha hb hne i hia hib
  have incl : ∀ {gs gs' : List (List Index)},
      (∀ g ∈ gs, 2 ≤ g.length ∧ g.Pairwise (· < ·) ∧ ∀ i ∈ g, dom i) → gs.Pairwise (fun g h => ∀ i ∈ g, i ∉ h) →
      (∀ i j, dom i → dom j → i ≠ j → ((∃ g ∈ gs, i ∈ g ∧ j ∈ g) ↔ rel i j)) →
      (∀ g ∈ gs', 2 ≤ g.length ∧ g.Pairwise (· < ·) ∧ ∀ i ∈ g, dom i) → gs'.Pairwise (fun g h => ∀ i ∈ g, i ∉ h) →
      (∀ i j, dom i → dom j → i ≠ j → ((∃ g ∈ gs', i ∈ g ∧ j ∈ g) ↔ rel i j)) → ∀ g ∈ gs, g ∈ gs' := by
    intro gs gs' k1 k2 k3 k1' k2' k3' g hg
    obtain ⟨hl, hs, hd⟩ := k1 g hg
    obtain ⟨i, j, r, rfl⟩ : ∃ i j r, g = i :: j :: r := by
      match g, hl with
      | i :: j :: r, _ => exact ⟨i, j, r, rfl⟩
    have hij : i ≠ j := by
      have := (List.pairwise_cons.1 hs).1 j (by simp)
      exact fun he => Nat.lt_irrefl _ (he ▸ this)
    have hr : rel i j := (k3 i j (hd i (by simp)) (hd j (by simp)) hij).1 ⟨_, hg, by simp, by simp⟩
    obtain ⟨g', hg', hi, hj⟩ := (k3' i j (hd i (by simp)) (hd j (by simp)) hij).2 hr
    have : i :: j :: r = g' := by
      refine sorted_ext hs (k1' g' hg').2.1 fun x => ⟨fun hx => ?_, fun hx => ?_⟩
      · by_cases hxi : i = x
        · exact hxi ▸ hi
        · obtain ⟨g2, hg2, hi2, hx2⟩ := (k3' i x (hd i (by simp)) (hd x hx) hxi).2
            ((k3 i x (hd i (by simp)) (hd x hx) hxi).1 ⟨_, hg, by simp, hx⟩)
          rw [disj k2' g' hg' g2 hg2 i hi hi2]
          exact hx2
      · by_cases hxi : i = x
        · rw [← hxi]; simp
        · have hdx := (k1' g' hg').2.2 x hx
          obtain ⟨g2, hg2, hi2, hx2⟩ := (k3 i x (hd i (by simp)) hdx hxi).2
            ((k3' i x (hd i (by simp)) hdx hxi).1 ⟨_, hg', hi, hx⟩)
          rw [disj k2 _ hg g2 hg2 i (by simp) hi2]
          exact hx2
    rw [this]
    exact hg'
  exact (List.perm_ext_iff_of_nodup (nodup h1 h2) (nodup h1' h2')).2 fun g =>
    ⟨incl h1 h2 h3 h1' h2' h3' g, incl h1' h2' h3' h1 h2 h3 g⟩

theorem classes_perm {groups groups' : List (List Index)} {n : Nat} {rel : Index → Index → Prop}
    (h : AreClasses groups n rel) (h' : AreClasses groups' n rel) : groups.Perm groups' :=
  groups_perm (dom := (· < n)) h.1 h.2.1 h.2.2 h'.1 h'.2.1 h'.2.2

theorem classes_nodup {groups : List (List Index)} {n : Nat} {rel : Index → Index → Prop}
    (h : AreClasses groups n rel) : groups.Nodup := by
  refine h.2.1.imp_of_mem ?_
  rintro a b ha _ hab rfl
  have := (h.1 a ha).1
  cases a with
  | nil => simp at this
  | cons x a => exact hab x (by simp) (by simp)

/-! ### maps -/

theorem sublist_ext {α : Type} {l k k' : List α} (hl : l.Nodup) (h : k.Sublist l) (h' : k'.Sublist l)
    (hm : ∀ x, x ∈ k ↔ x ∈ k') : k = k' := by
  have key : ∀ {j : List α}, j.Sublist l → j.length ≤ j.length → True := fun _ _ => trivial
  have hp : k.Perm k' := (List.perm_ext_iff_of_nodup (h.nodup hl) (h'.nodup hl)).2 hm
  clear key
  induction l generalizing k k' with
  | nil => rw [List.sublist_nil.1 h, List.sublist_nil.1 h']
  | cons a l ih =>
    rw [List.nodup_cons] at hl
    have hin : ∀ {j : List α}, j.Sublist (a :: l) → (a ∈ j ∧ ∃ i, j = a :: i ∧ i.Sublist l) ∨
        (a ∉ j ∧ j.Sublist l) := by
      intro j hj
      cases hj with
      | cons _ hj => exact .inr ⟨fun ha => hl.1 (hj.subset ha), hj⟩
      | cons_cons _ hj => exact .inl ⟨by simp, _, rfl, hj⟩
    rcases hin h with ⟨ha, i, rfl, hi⟩ | ⟨ha, hi⟩
    · rcases hin h' with ⟨_, i', rfl, hi'⟩ | ⟨ha', _⟩
      · have hp' := List.Perm.cons_inv hp
        rw [ih hl.2 hi hi' (fun x => hp'.mem_iff) hp']
      · exact absurd ((hm a).1 ha) ha'
    · rcases hin h' with ⟨ha', _⟩ | ⟨_, hi'⟩
      · exact absurd ((hm a).2 ha') ha
      · exact ih hl.2 hi hi' hm hp

theorem entry_unique {α : Type} {entries : List (Uuid × Issues α)} (h : (entries.map Prod.fst).Nodup)
    {k : Uuid} {s s' : Issues α} (hs : (k, s) ∈ entries) (hs' : (k, s') ∈ entries) : s = s' :=
  (Prod.mk.inj (List.inj_on_of_nodup_map h hs hs' rfl)).2

theorem sameEntries_of_keys {α : Type} {R : List α → List α → Prop} {map map' : IssuesMap α}
    (hk : map.entries.map Prod.fst = map'.entries.map Prod.fst)
    (hR : ∀ k s s', (k, s) ∈ map.entries → (k, s') ∈ map'.entries → R s.issues s'.issues) : SameEntries R map map' := by
  unfold SameEntries
  have hl : map.entries.length = map'.entries.length := by
    have := congrArg List.length hk
    simpa using this
  rw [List.forall₂_iff_get]
  refine ⟨hl, fun i h1 h2 => ?_⟩
  have he : (map.entries.get ⟨i, h1⟩).1 = (map'.entries.get ⟨i, h2⟩).1 := by
    have h3 : (map.entries.map Prod.fst)[i]? = (map'.entries.map Prod.fst)[i]? := by rw [hk]
    simp only [List.getElem?_map, List.getElem?_eq_getElem h1, List.getElem?_eq_getElem h2, Option.map_some,
      Option.some.injEq] at h3
    exact h3
  refine ⟨he, hR (map.entries.get ⟨i, h1⟩).1 _ _ (List.get_mem _ _) ?_⟩
  rw [he]
  exact List.get_mem _ _

theorem sameEntries_of {C α : Type} {R : List α → List α → Prop} {map map' : IssuesMap α} {comps : List C}
    {id : C → Uuid} {expected expected' : C → List α → Prop} (hn : (comps.map id).Nodup)
    (h : MapReports map comps id expected) (h' : MapReports map' comps id expected')
    (hR : ∀ c ∈ comps, ∀ l l', expected c l → expected' c l' → R l l' ∧ (l = [] ↔ l' = [])) :
    SameEntries R map map' := by
  have hmem : ∀ {map map' : IssuesMap α} {expected expected' : C → List α → Prop}, MapReports map comps id expected →
      MapReports map' comps id expected' →
      (∀ c ∈ comps, ∀ l l', expected c l → expected' c l' → (l = [] ↔ l' = [])) →
      ∀ x, x ∈ map.entries.map Prod.fst → x ∈ map'.entries.map Prod.fst := by
    intro map map' expected expected' h h' he x hx
    obtain ⟨c, hc, rfl⟩ := List.mem_map.1 (h.1.subset hx)
    obtain ⟨e, hm, heq⟩ := List.mem_map.1 hx
    obtain ⟨l, h1, h2, h3⟩ := h.2 c hc
    obtain ⟨l', h1', h2', h3'⟩ := h'.2 c hc
    have hl : l ≠ [] := by
      intro hl
      exact h2 hl e.2 (by rw [← heq]; exact hm)
    obtain ⟨s, hs, _⟩ := h3' fun hl' => hl ((he c hc l l' h1 h1').2 hl')
    exact List.mem_map.2 ⟨_, hs, rfl⟩
  have hk : map.entries.map Prod.fst = map'.entries.map Prod.fst :=
    sublist_ext hn h.1 h'.1 fun x => ⟨hmem h h' (fun c hc l l' e e' => (hR c hc l l' e e').2) x,
      hmem h' h (fun c hc l l' e e' => (hR c hc l' l e' e).2.symm) x⟩
  refine sameEntries_of_keys hk fun k s s' hs hs' => ?_
  have hx : k ∈ map.entries.map Prod.fst := List.mem_map.2 ⟨_, hs, rfl⟩
  obtain ⟨c, hc, rfl⟩ := List.mem_map.1 (h.1.subset hx)
  obtain ⟨l, h1, h2, h3⟩ := h.2 c hc
  obtain ⟨l', h1', h2', h3'⟩ := h'.2 c hc
  have hl : l ≠ [] := fun hl => h2 hl s hs
  have hl' : l' ≠ [] := fun hl => h2' hl s' hs'
  obtain ⟨t, ht, rfl⟩ := h3 hl
  obtain ⟨t', ht', rfl⟩ := h3' hl'
  rw [entry_unique (h.1.nodup hn) hs ht, entry_unique (h'.1.nodup hn) hs' ht']
  exact (hR c hc _ _ h1 h1').1

theorem same_lt {C : Type} {map map' : IssuesMap Index} {comps : List C} {id : C → Uuid} {p : C → Index → Prop}
    (hn : (comps.map id).Nodup) (h : MapReports map comps id fun c l => Exactly (· < ·) (p c) l)
    (h' : MapReports map' comps id fun c l => Exactly (· < ·) (p c) l) : SameEntries (· = ·) map map' :=
  sameEntries_of hn h h' fun c _ l l' e e' => by
    have := exactly_lt_eq e e'
    exact ⟨this, by rw [this]⟩

theorem same_perm {C α : Type} {map map' : IssuesMap α} {comps : List C} {id : C → Uuid} {lt : α → α → Prop}
    (hirr : ∀ a, ¬ lt a a) {p : C → α → Prop} (hn : (comps.map id).Nodup)
    (h : MapReports map comps id fun c l => Exactly lt (p c) l)
    (h' : MapReports map' comps id fun c l => Exactly lt (p c) l) : SameEntries List.Perm map map' :=
  sameEntries_of hn h h' fun c _ l l' e e' => by
    have := exactly_perm hirr e e'
    exact ⟨this, ⟨fun hl => (hl ▸ this).nil_eq.symm, fun hl => (hl ▸ this).eq_nil⟩⟩

/-! ### meshes -/

theorem same_curve {lib : Library P} {mesh : CurveData P} {r r' : EdgedCurveInspectionResult}
    (h : CurveReport lib mesh r) (h' : CurveReport lib mesh r') : SameCurveLists r r' :=
  ⟨classes_perm h.colocation h'.colocation, exactly_lt_eq h.edges h'.edges⟩

theorem polygons_swap {mesh : SurfaceData P} {r : SurfaceInspectionResult} {dimension : Nat} {lib : Library P}
    (h : SurfaceReport dimension lib mesh r) (p q : Index) :
    ((p, q) ∈ r.intersecting_elements.issues ∨ (q, p) ∈ r.intersecting_elements.issues) ↔
      (PolygonsIntersect mesh p q ∨ PolygonsIntersect mesh q p) := by
  constructor
  · rintro (hm | hm)
    · exact .inl (h.intersecting _ hm)
    · exact .inr (h.intersecting _ hm)
  · rintro (hm | hm)
    · exact h.allIntersecting p q hm
    · exact (h.allIntersecting q p hm).symm

theorem same_surface {dimension : Nat} {lib : Library P} {mesh : SurfaceData P} {traverse : Traversal}
    {r r' : SurfaceInspectionResult} (h : SurfaceReport dimension lib mesh r)
    (h' : SurfaceReport dimension lib { mesh with
      traverse := traverse } r') : SameSurfaceLists r r' where
  adjacency := exactly_lex_eq h.adjacency h'.adjacency
  colocation := classes_perm h.colocation h'.colocation
  edges := exactly_lt_eq h.edges h'.edges
  polygons := exactly_lt_eq h.polygons h'.polygons
  manifoldEdges := exactly_perm (fun _ hn => hn rfl) h.manifoldEdges h'.manifoldEdges
  manifoldVertices := exactly_lt_eq h.manifoldVertices h'.manifoldVertices
  intersecting p q := (polygons_swap h p q).trans (polygons_swap h' p q).symm
  negative := exactly_lt_eq h.negative h'.negative

theorem same_solid {lib : Library P} {mesh : SolidData P} {r r' : SolidInspectionResult}
    (h : SolidReport lib mesh r) (h' : SolidReport lib mesh r') : SameSolidLists r r' where
  adjacency := exactly_lex_eq h.adjacency h'.adjacency
  colocation := classes_perm h.colocation h'.colocation
  edges := exactly_lt_eq h.edges h'.edges
  polyhedra := exactly_lt_eq h.polyhedra h'.polyhedra
  manifoldVertices := exactly_lt_eq h.manifoldVertices h'.manifoldVertices
  manifoldEdges := exactly_perm (fun _ hn => hn (.inl rfl)) h.manifoldEdges h'.manifoldEdges
  manifoldFacets := exactly_perm (fun _ hn => hn rfl) h.manifoldFacets h'.manifoldFacets
  negative := exactly_lt_eq h.negative h'.negative

/-! ### models: meshes -/

theorem same_uniqueVertices {lib : ModelLibrary P} {m : ModelData P} {r r' : UniqueVerticesInspectionResult}
    (h : UniqueVerticesReport lib m r) (h' : UniqueVerticesReport lib m r') : SameUniqueVerticesLists r r' where
  points := exactly_lt_eq h.points h'.points
  colocated := by
    obtain ⟨h1, h2, h3⟩ := h.colocated
    obtain ⟨h1', h2', h3'⟩ := h'.colocated
    refine groups_perm (dom := (· ∈ activeUvs (m.uniqueVertices lib))) (rel := fun uva uvb => ∀ a b,
      (activeUvs (m.uniqueVertices lib))[a]? = some uva → (activeUvs (m.uniqueVertices lib))[b]? = some uvb →
      Colocated (lib.search (activePositions (m.uniqueVertices lib))) a b) h1 h2 ?_ h1' h2' ?_
    · intro i j hi hj hij
      obtain ⟨a, ha⟩ := List.getElem?_of_mem hi
      obtain ⟨b, hb⟩ := List.getElem?_of_mem hj
      exact ⟨fun hg a b ha hb => (h3 a b i j ha hb hij).1 hg, fun hr => (h3 a b i j ha hb hij).2 (hr a b ha hb)⟩
    · intro i j hi hj hij
      obtain ⟨a, ha⟩ := List.getElem?_of_mem hi
      obtain ⟨b, hb⟩ := List.getElem?_of_mem hj
      exact ⟨fun hg a b ha hb => (h3' a b i j ha hb hij).1 hg, fun hr => (h3' a b i j ha hb hij).2 (hr a b ha hb)⟩

theorem same_colocation {search : List P → ColocatedInfo P} {comps : List (PointComponent P)}
    (hn : (comps.map PointComponent.id).Nodup) {map map' : IssuesMap (List Index)}
    (h : ColocationMapOk search comps map) (h' : ColocationMapOk search comps map') :
    SameEntries (fun l l' => l.length = l'.length) map map' := by
  have hlen : ∀ k s s', (k, s) ∈ map.entries → (k, s') ∈ map'.entries → s.issues.length = s'.issues.length := by
    intro k s s' hs hs'
    obtain ⟨c, hc, rfl⟩ := List.mem_map.1 (h.1.subset (List.mem_map.2 ⟨_, hs, rfl⟩))
    obtain ⟨g, hg, k, k1, k2, k3⟩ := (h.2.2 c hc).2 s hs
    obtain ⟨g', hg', k', k1', k2', k3'⟩ := (h'.2.2 c hc).2 s' hs'
    rw [← k3.length_eq, ← k3'.length_eq]
    refine List.Perm.length_eq ((List.perm_ext_iff_of_nodup (k1.nodup (classes_nodup hg))
      (k1'.nodup (classes_nodup hg'))).2 fun x => ?_)
    have hp := classes_perm hg hg'
    constructor
    · intro hx
      have hx1 := k1.subset hx
      exact (k2' x (hp.mem_iff.1 hx1)).2 ((k2 x hx1).1 hx)
    · intro hx
      have hx1 := k1'.subset hx
      exact (k2 x (hp.mem_iff.2 hx1)).2 ((k2' x hx1).1 hx)
  refine sameEntries_of_keys (sublist_ext hn h.1 h'.1 ?_) hlen
  have key : ∀ {map map' : IssuesMap (List Index)}, ColocationMapOk search comps map →
      ColocationMapOk search comps map' → ∀ x, x ∈ map.entries.map Prod.fst → x ∈ map'.entries.map Prod.fst := by
    intro map map' h h' x hx
    obtain ⟨c, hc, rfl⟩ := List.mem_map.1 (h.1.subset hx)
    obtain ⟨⟨i, s⟩, hm, heq⟩ := List.mem_map.1 hx
    simp only at heq
    subst heq
    obtain ⟨s', hs'⟩ := (h'.2.2 c hc).1.2 ((h.2.2 c hc).1.1 ⟨s, hm⟩)
    exact List.mem_map.2 ⟨_, hs', rfl⟩
  exact fun x => ⟨key h h' x, key h' h x⟩

theorem nodup_part {α : Type} {l : List α} {id : α → Uuid} (f : α → Bool) (h : (l.map id).Nodup) :
    ((l.filter f).map id).Nodup :=
  (List.filter_sublist.map id).nodup h

/-- the ids of the active Lines, Surfaces and Blocks are distinct -/
theorem active_nodup {lib : ModelLibrary P} {m : ModelData P} (h : MeshesOk lib m) :
    ((m.lines.filter fun l => l.active).map LineData.id ++ (m.surfaces.filter fun s => s.active).map FaceData.id ++
      (m.blocks.filter fun b => b.active).map VolumeData.id).Nodup := by
  have h1 := h.ids
  rw [List.append_assoc, List.append_assoc] at h1
  have h2 : (m.lines.map LineData.id ++ (m.surfaces.map FaceData.id ++ m.blocks.map VolumeData.id)).Nodup :=
    (List.nodup_append.1 h1).2.1
  rw [List.append_assoc]
  exact (List.Sublist.append (List.filter_sublist.map _)
    (List.Sublist.append (List.filter_sublist.map _) (List.filter_sublist.map _))).nodup h2

theorem same_section_meshes {lib : ModelLibrary P} {m : ModelData P} {c : Candidates P} (hm : MeshesOk lib m)
    {r r' : SectionMeshesInspectionResult} (h : SectionMeshesReport lib m c r) (h' : SectionMeshesReport lib m c r') :
    SameSectionMeshesLists r r' := by
  have ha := active_nodup hm
  have hls : ((m.lines.filter fun l => l.active).map LineData.id ++
      (m.surfaces.filter fun s => s.active).map FaceData.id).Nodup := (List.nodup_append.1 ha).1
  have hs : ((m.surfaces.filter fun s => s.active).map FaceData.id).Nodup := (List.nodup_append.1 hls).2.1
  refine { uniqueVertices := same_uniqueVertices h.uniqueVertices h'.uniqueVertices
           colocation := same_colocation ?_ h.colocation h'.colocation
           adjacency := sameEntries_of hs h.adjacency h'.adjacency ?_
           edges := same_lt ?_ h.edges h'.edges
           polygons := same_lt ?_ h.polygons h'.polygons
           intersections := ?_
           manifoldVertices := same_lt hs h.manifoldVertices h'.manifoldVertices
           manifoldEdges := same_perm (fun _ hn => hn rfl) hs h.manifoldEdges h'.manifoldEdges
           negative := same_lt hs h.negative h'.negative }
  · simp only [ModelData.linePoints, ModelData.surfacePoints, List.filter_append, List.filter_map, List.map_append,
      List.map_map]; exact hls
  · rintro s _ l l' ⟨l1, l2, rfl, h1, h2⟩ ⟨l1', l2', rfl, h1', h2'⟩
    rw [exactly_lex_eq h1 h1', exactly_lex_eq h2 h2']
    exact ⟨rfl, Iff.rfl⟩
  · simp only [shortLineEdges, shortSurfaceEdges, List.map_append, List.map_map]; exact hls
  · simp only [flatPolygons, List.map_map]; exact hs
  · have h1 := h.intersections
    have h2 := h'.intersections
    split at h1
    · rw [if_pos ‹_›] at h2
      exact h1.trans h2.symm
    · rw [if_neg ‹_›] at h2
      rw [h1, h2]

theorem same_brep_meshes {lib : ModelLibrary P} {m : ModelData P} {c : Candidates P} (hm : MeshesOk lib m)
    {r r' : BRepMeshesInspectionResult} (h : BRepMeshesReport lib m c r) (h' : BRepMeshesReport lib m c r') :
    SameBRepMeshesLists r r' := by
  have ha := active_nodup hm
  have hls : ((m.lines.filter fun l => l.active).map LineData.id ++
      (m.surfaces.filter fun s => s.active).map FaceData.id).Nodup := (List.nodup_append.1 ha).1
  have hs : ((m.surfaces.filter fun s => s.active).map FaceData.id).Nodup := (List.nodup_append.1 hls).2.1
  have hb : ((m.blocks.filter fun s => s.active).map VolumeData.id).Nodup := (List.nodup_append.1 ha).2.1
  have hsb : ((m.surfaces.filter fun s => s.active).map FaceData.id ++
      (m.blocks.filter fun b => b.active).map VolumeData.id).Nodup := by
    rw [List.append_assoc] at ha
    exact (List.nodup_append.1 ha).2.1
  refine { uniqueVertices := same_uniqueVertices h.uniqueVertices h'.uniqueVertices
           colocation := same_colocation ?_ h.colocation h'.colocation
           surfaceAdjacency := sameEntries_of hs h.surfaceAdjacency h'.surfaceAdjacency ?_
           blockAdjacency := sameEntries_of hb h.blockAdjacency h'.blockAdjacency ?_
           edges := same_lt ?_ h.edges h'.edges
           polygons := same_lt ?_ h.polygons h'.polygons
           polyhedra := same_lt ?_ h.polyhedra h'.polyhedra
           intersections := ?_
           manifoldVertices := sameEntries_of ?_ h.manifoldVertices h'.manifoldVertices ?_
           manifoldEdges := sameEntries_of ?_ h.manifoldEdges h'.manifoldEdges ?_
           manifoldFacets := same_perm (fun _ hn => hn rfl) hb h.manifoldFacets h'.manifoldFacets
           modelEdges := ?_
           modelFacets := h.modelFacets.trans h'.modelFacets.symm
           negative := same_lt hb h.negative h'.negative }
  · simp only [ModelData.linePoints, ModelData.surfacePoints, ModelData.blockPoints, List.filter_append,
      List.filter_map, List.map_append, List.map_map]; exact ha
  · rintro s _ l l' ⟨l1, l2, rfl, h1, h2⟩ ⟨l1', l2', rfl, h1', h2'⟩
    rw [exactly_lex_eq h1 h1', exactly_lex_eq h2 h2']
    exact ⟨rfl, Iff.rfl⟩
  · rintro s _ l l' ⟨l1, l2, rfl, h1, h2⟩ ⟨l1', l2', rfl, h1', h2'⟩
    rw [exactly_lex_eq h1 h1', exactly_lex_eq h2 h2']
    exact ⟨rfl, Iff.rfl⟩
  · simp only [shortLineEdges, shortSurfaceEdges, shortBlockEdges, List.map_append, List.map_map]; exact ha
  · simp only [flatPolygons, List.map_map]; exact hs
  · simp only [flatPolyhedra, List.map_map]; exact hb
  · have h1 := h.intersections
    have h2 := h'.intersections
    split at h1
    · rw [if_pos ‹_›] at h2
      exact h1.trans h2.symm
    · rw [if_neg ‹_›] at h2
      rw [h1, h2]
  · simp only [List.map_append, List.map_map]; exact hsb
  · intro x hx l l' e e'
    have : l = l' := by
      rcases List.mem_append.1 hx with hx | hx <;> obtain ⟨s, _, rfl⟩ := List.mem_map.1 hx <;>
        exact exactly_lt_eq e e'
    exact ⟨this, by rw [this]⟩
  · simp only [List.map_append, List.map_map]; exact hsb
  · intro x hx l l' e e'
    have : l.Perm l' := by
      rcases List.mem_append.1 hx with hx | hx <;> obtain ⟨s, _, rfl⟩ := List.mem_map.1 hx
      · exact exactly_perm (fun _ hn => hn rfl) e e'
      · exact exactly_perm (fun _ hn => hn (.inl rfl)) e e'
    exact ⟨this, ⟨fun hl => (hl ▸ this).nil_eq.symm, fun hl => (hl ▸ this).eq_nil⟩⟩
  · obtain ⟨a, ha1, ha2⟩ := h.modelEdges
    obtain ⟨a', ha1', ha2'⟩ := h'.modelEdges
    rw [ha1, ha1']
    exact (exactly_perm (fun _ hn => hn rfl) ha2 ha2').append_right _

/-! ### models: topology -/

theorem topology_nodup {lib : ModelLibrary P} {m : ModelData P} (h : MeshesOk lib m) (rt : ModelRuntime)
    (kind : ComponentType) : ((((m.topology rt).components kind).filter fun c => c.active).map
      TopologyComponent.id).Nodup := by
  apply nodup_part
  obtain ⟨h1, h2, h3, h4⟩ := meshes_nodup h
  cases kind with
  | corner => simp only [ModelData.topology, List.map_map]; exact h1
  | line => simp only [ModelData.topology, List.map_map]; exact h2
  | surface => simp only [ModelData.topology, List.map_map]; exact h3
  | block => simp only [ModelData.topology, List.map_map]; exact h4
  | other => exact List.nodup_nil

theorem same_section_topology {lib : ModelLibrary P} {m : ModelData P} (hm : MeshesOk lib m) (rt rt' : ModelRuntime)
    {r r' : SectionTopologyInspectionResult} (h : SectionTopologyReport (m.topology rt) r)
    (h' : SectionTopologyReport (m.topology rt') r') : SameSectionTopologyLists r r' := by
  obtain ⟨hl, hc, hli, hs⟩ := h
  obtain ⟨hl', hc', hli', hs'⟩ := h'
  obtain ⟨l1, l2, l3⟩ := hl
  obtain ⟨l1', l2', l3'⟩ := hl'
  obtain ⟨c1, c2, c3, c4, c5, c6⟩ := hc
  obtain ⟨c1', c2', c3', c4', c5', c6'⟩ := hc'
  obtain ⟨i1, i2, i3, i4, i5, i6⟩ := hli
  obtain ⟨i1', i2', i3', i4', i5', i6'⟩ := hli'
  obtain ⟨s1, s2, s3, s4⟩ := hs
  obtain ⟨s1', s2', s3', s4'⟩ := hs'
  exact { notLinked := exactly_lt_eq l1 l1'
          inexistent := l2.trans l2'.symm
          nonBijective := l3.trans l3'.symm
          corners := ⟨c1.trans c1'.symm, same_lt (topology_nodup hm rt .corner) c2 c2', exactly_lt_eq c3 c3',
            exactly_lt_eq c4 c4', exactly_lt_eq c5 c5', exactly_lt_eq c6 c6'⟩
          lines := ⟨i1.trans i1'.symm, same_lt (topology_nodup hm rt .line) i2 i2', exactly_lt_eq i3 i3',
            exactly_lt_eq i4 i4', exactly_lt_eq i5 i5', exactly_lt_eq i6 i6'⟩
          surfaces := ⟨s1.trans s1'.symm, same_lt (topology_nodup hm rt .surface) s2 s2', exactly_lt_eq s3 s3',
            exactly_lt_eq s4 s4'⟩ }

theorem sameEntries_refl {α : Type} {R : List α → List α → Prop} (hR : ∀ l, R l l) (map : IssuesMap α) :
    SameEntries R map map := by
  unfold SameEntries
  rw [List.forall₂_same]
  exact fun _ _ => ⟨rfl, hR _⟩

theorem same_brep_topology {lib : ModelLibrary P} {m : ModelData P} (hm : MeshesOk lib m) (rt rt' : ModelRuntime)
    {r r' : BRepTopologyInspectionResult} (h : BRepTopologyReport (m.topology rt) m.blocksOracle r)
    (h' : BRepTopologyReport (m.topology rt') m.blocksOracle r') : SameBRepTopologyLists r r' := by
  obtain ⟨hl, hc, hli, hno, hs, hb, hnb⟩ := h
  obtain ⟨hl', hc', hli', hno', hs', hb', hnb'⟩ := h'
  obtain ⟨l1, l2, l3⟩ := hl
  obtain ⟨l1', l2', l3'⟩ := hl'
  obtain ⟨c1, c2, c3, c4, c5, c6⟩ := hc
  obtain ⟨c1', c2', c3', c4', c5', c6'⟩ := hc'
  obtain ⟨s1, s2, s3, s4, s5, s6⟩ := hs
  obtain ⟨s1', s2', s3', s4', s5', s6'⟩ := hs'
  refine { notLinked := exactly_lt_eq l1 l1'
           inexistent := l2.trans l2'.symm
           nonBijective := l3.trans l3'.symm
           corners := ⟨c1.trans c1'.symm, same_lt (topology_nodup hm rt .corner) c2 c2', exactly_lt_eq c3 c3',
             exactly_lt_eq c4 c4', exactly_lt_eq c5 c5', exactly_lt_eq c6 c6'⟩
           lines := ?_
           surfaces := ⟨s1.trans s1'.symm, same_lt (topology_nodup hm rt .surface) s2 s2',
             same_lt (topology_nodup hm rt .surface) s3 s3', exactly_lt_eq s4 s4', exactly_lt_eq s5 s5',
             exactly_lt_eq s6 s6'⟩
           blocks := ?_ }
  · by_cases hu : LinesUnreadable (m.topology rt)
    · rw [hno hu, hno' hu]
      exact ⟨rfl, sameEntries_refl (fun _ => rfl) _, sameEntries_refl (fun _ => rfl) _, rfl, rfl, rfl, rfl⟩
    · obtain ⟨i1, i2, i3, i4, i5, i6, i7⟩ := hli hu
      obtain ⟨i1', i2', i3', i4', i5', i6', i7'⟩ := hli' hu
      exact ⟨i1.trans i1'.symm, same_lt (topology_nodup hm rt .line) i2 i2',
        same_lt (topology_nodup hm rt .line) i3 i3', exactly_lt_eq i4 i4', exactly_lt_eq i5 i5',
        exactly_lt_eq i6 i6', exactly_lt_eq i7 i7'⟩
  · by_cases hact : ∃ c ∈ (m.topology rt).components .block, c.active = true
    · have k := hb hact
      have k' := hb' hact
      have hcl := k.notClosed
      have hcl' := k'.notClosed
      have henc : ∀ id, BoundaryEncloses (m.topology rt) m.blocksOracle.geometry id ↔
          BoundaryEncloses (m.topology rt') m.blocksOracle.geometry id :=
        fun id => (encloses_congr (m.topology rt') rt.aroundOrder _ _ _ _ _ _ id)
      refine ⟨k.notMeshed.trans k'.notMeshed.symm, same_lt ?_ k.notLinked k'.notLinked,
        k.modelBoundaries.trans k'.modelBoundaries.symm, ?_, k.wrongBoundary.trans k'.wrongBoundary.symm,
        exactly_lt_eq k.twoBlocks k'.twoBlocks, exactly_lt_eq k.count k'.count, exactly_lt_eq k.single k'.single,
        exactly_lt_eq k.wrong k'.wrong, exactly_lt_eq k.multiple k'.multiple⟩
      · exact nodup_part _ (topology_nodup hm rt .block)
      · refine hcl.trans (Eq.trans ?_ hcl'.symm)
        refine congrArg _ (List.filter_congr fun c _ => ?_)
        simp only [decide_eq_decide]
        exact not_congr (henc c.id)
    · have hact' : ∀ c ∈ (m.topology rt).components .block, c.active = false := fun c hc => by
        by_contra hne
        exact hact ⟨c, hc, by simpa using hne⟩
      rw [hnb hact', hnb' hact']
      exact ⟨rfl, sameEntries_refl (fun _ => rfl) _, rfl, rfl, rfl, rfl, rfl, rfl, rfl, rfl⟩

end Inspector.Plain
