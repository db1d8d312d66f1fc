import Verif.Spec.Identify
/-
Proofs of C98: reading numbers back in texts.
-/
namespace Inspector
open Spec
variable {P : Type}

/-- The text does not begin by a digit. -/
def NoDigit (s : String) : Prop := ∀ c, s.toList.head? = some c → c.isDigit = false

theorem noDigit_append {p : String} (hp : ∃ c, p.toList.head? = some c ∧ c.isDigit = false) (s : String) :
    NoDigit (p ++ s) := by
  obtain ⟨c, h1, h2⟩ := hp
  intro d hd
  rw [String.toList_append, List.head?_append, h1] at hd
  cases hd; exact h2

theorem noDigit_of {p : String} (hp : ∃ c, p.toList.head? = some c ∧ c.isDigit = false) : NoDigit p := by
  obtain ⟨c, h1, h2⟩ := hp
  intro d hd
  rw [h1] at hd; cases hd; exact h2

theorem digits_split {l l' s s' : List Char} (hl : ∀ c ∈ l, c.isDigit = true) (hl' : ∀ c ∈ l', c.isDigit = true)
    (hs : ∀ c, s.head? = some c → c.isDigit = false) (hs' : ∀ c, s'.head? = some c → c.isDigit = false)
    (h : l ++ s = l' ++ s') : l = l' ∧ s = s' := by
  induction l generalizing l' with
  | nil =>
    cases l' with
    | nil => exact ⟨rfl, h⟩
    | cons c l' =>
      rw [List.nil_append, List.cons_append] at h
      have h1 := hs c (by rw [h]; rfl)
      rw [hl' c List.mem_cons_self] at h1; cases h1
  | cons c l ih =>
    cases l' with
    | nil =>
      rw [List.nil_append, List.cons_append] at h
      have h1 := hs' c (by rw [← h]; rfl)
      rw [hl c List.mem_cons_self] at h1; cases h1
    | cons d l' =>
      rw [List.cons_append, List.cons_append, List.cons.injEq] at h
      obtain ⟨rfl, h⟩ := h
      obtain ⟨h1, h2⟩ := ih (fun c hc => hl c (List.mem_cons_of_mem _ hc)) (fun c hc => hl' c (List.mem_cons_of_mem _ hc)) h
      exact ⟨congrArg _ h1, h2⟩

theorem number_digits (n : Nat) : ∀ c ∈ (toString n).toList, c.isDigit = true := by
  intro c hc
  rw [Nat.toString_eq_repr, Nat.toList_repr] at hc
  exact Nat.isDigit_of_mem_toDigits (by decide) (by decide) hc

theorem toString_inj {n k : Nat} (h : toString n = toString k) : n = k := by
  have h1 : Nat.toDigits 10 n = Nat.toDigits 10 k := by
    rw [Nat.toString_eq_repr, Nat.toString_eq_repr] at h
    rw [← Nat.toList_repr, ← Nat.toList_repr, h]
  rw [← Nat.ofDigitChars_toDigits (b := 10) (n := n) (by decide) (by decide), h1,
    Nat.ofDigitChars_toDigits (by decide) (by decide)]

/-- A number followed by something else than a digit can be read back. -/
theorem number_split {n k : Nat} {s t : String} (hs : NoDigit s) (ht : NoDigit t)
    (h : toString n ++ s = toString k ++ t) : n = k ∧ s = t := by
  have h1 := congrArg String.toList h
  rw [String.toList_append, String.toList_append] at h1
  obtain ⟨h2, h3⟩ := digits_split (number_digits n) (number_digits k) hs ht h1
  exact ⟨toString_inj (String.toList_inj.1 h2), String.toList_inj.1 h3⟩

theorem prefix_cancel (p : String) {s t : String} (h : p ++ s = p ++ t) : s = t := by
  have h1 := congrArg String.toList h
  rw [String.toList_append, String.toList_append] at h1
  exact String.toList_inj.1 (List.append_cancel_left h1)

/-- A text which satisfies `claim` for two issues does it for issues with the same key. -/
def Identifies {α β : Type} (key : α → β) (claim : α → String → Prop) : Prop :=
  ∀ x y t, claim x t → claim y t → key x = key y

theorem toldApart_of {α β : Type} {key : α → β} {claim : α → String → Prop} (hc : Identifies key claim) {s : Issues α}
    (h : Explained s claim) : ToldApartBy key s := by
  intro i j x y t hx hi hy hj
  have hget : ∀ (k : Nat) (z : α) (l : List α) (texts : List String), List.Forall₂ claim l texts →
      l[k]? = some z → texts[k]? = some t → claim z t := by
    intro k z l texts hf
    induction hf generalizing k with
    | nil => intro h1; simp at h1
    | cons hab _ ih =>
      cases k with
      | zero => intro h1 h2; cases h1; cases h2; exact hab
      | succ k => intro h1 h2; exact ih k h1 h2
  exact hc x y t (hget i x _ _ h hx hi) (hget j y _ _ h hy hj)

theorem toldApart_told {α β : Type} {key : α → β} {claim : α → String → Prop} (hc : Identifies key claim) {s : Issues α}
    {d : String} (h : Told s d claim) : ToldApartBy key s := toldApart_of hc h.2

/-! ### numbers in texts -/

/-- an introduction followed by a number that ends the text -/
theorem identifies_last (intro : String) : Identifies id fun (n : Index) t => t = intro ++ toString n := by
  intro x y t hx hy
  exact toString_inj (prefix_cancel intro (hx.symm.trans hy))

/-- an introduction followed by a number and by something else than a digit -/
theorem identifies_number (intro : String) (rest : Index → String) (hr : ∀ n, NoDigit (rest n)) :
    Identifies id fun (n : Index) t => t = intro ++ (toString n ++ rest n) := by
  intro x y t hx hy
  exact (number_split (hr x) (hr y) (prefix_cancel intro (hx.symm.trans hy))).1

/-- two numbers with a text between them, the second one ending the text -/
theorem two_numbers_last {a b a' b' : Nat} {intro sep : String} (hs : ∃ c, sep.toList.head? = some c ∧ c.isDigit = false)
    (h : intro ++ (toString a ++ (sep ++ toString b)) = intro ++ (toString a' ++ (sep ++ toString b'))) :
    a = a' ∧ b = b' := by
  obtain ⟨h1, h2⟩ := number_split (noDigit_append hs _) (noDigit_append hs _) (prefix_cancel intro h)
  exact ⟨h1, toString_inj (prefix_cancel sep h2)⟩

/-- two numbers with a text between them and a text after them -/
theorem two_numbers {a b a' b' : Nat} {intro sep r r' : String}
    (hs : ∃ c, sep.toList.head? = some c ∧ c.isDigit = false) (hr : NoDigit r) (hr' : NoDigit r')
    (h : intro ++ (toString a ++ (sep ++ (toString b ++ r))) = intro ++ (toString a' ++ (sep ++ (toString b' ++ r')))) :
    a = a' ∧ b = b' := by
  obtain ⟨h1, h2⟩ := number_split (noDigit_append hs _) (noDigit_append hs _) (prefix_cancel intro h)
  exact ⟨h1, (number_split hr hr' (prefix_cancel sep h2)).1⟩

/-- numbers each preceded by a space, before a text that begins by a space and a letter -/
theorem spaced_split {l l' : List Index} {s s' : String}
    (hs : ∃ c r, s.toList = ' ' :: c :: r ∧ c.isDigit = false) (hs' : ∃ c r, s'.toList = ' ' :: c :: r ∧ c.isDigit = false)
    (h : spaced l ++ s = spaced l' ++ s') : l = l' := by
  have hcons : ∀ (n : Index) (l : List Index), spaced (n :: l) = " " ++ (toString n ++ spaced l) := by
    intro n l
    simp only [spaced, List.map_cons, String.join_cons, String.append_assoc]
  have hnil : spaced [] = "" := rfl
  have hnd : ∀ (l : List Index) (s : String), (∃ c r, s.toList = ' ' :: c :: r ∧ c.isDigit = false) →
      NoDigit (spaced l ++ s) := by
    intro l s ⟨c, r, h1, _⟩ d hd
    cases l with
    | nil =>
      rw [hnil, String.empty_append, h1] at hd; cases hd; decide
    | cons n l =>
      rw [hcons, String.append_assoc] at hd
      exact noDigit_append ⟨' ', rfl, by decide⟩ _ d hd
  have hclash : ∀ (n : Index) (l : List Index) (s s' : String), (∃ c r, s.toList = ' ' :: c :: r ∧ c.isDigit = false) →
      s = spaced (n :: l) ++ s' → False := by
    intro n l s s' ⟨c, r, h1, h2⟩ h
    have h3 := congrArg String.toList h
    rw [h1, hcons, String.toList_append, String.toList_append, String.toList_append] at h3
    obtain ⟨d, r', hd⟩ : ∃ d r', (toString n).toList = d :: r' := by
      have : (toString n).toList ≠ [] := by
        rw [Nat.toString_eq_repr, Nat.toList_repr]; exact Nat.toDigits_ne_nil
      match h : (toString n).toList, this with
      | d :: r', _ => exact ⟨d, r', rfl⟩
    rw [hd] at h3
    have h4 : c = d := by
      have := congrArg (fun l => l[1]?) h3
      simpa using this
    have h5 := number_digits n d (by rw [hd]; exact List.mem_cons_self)
    rw [← h4, h2] at h5; cases h5
  induction l generalizing l' with
  | nil =>
    cases l' with
    | nil => rfl
    | cons n l' => rw [hnil, String.empty_append] at h; exact (hclash n l' s s' hs h).elim
  | cons n l ih =>
    cases l' with
    | nil => rw [hnil, String.empty_append] at h; exact (hclash n l s' s hs' h.symm).elim
    | cons k l' =>
      rw [hcons, hcons, String.append_assoc, String.append_assoc, String.append_assoc, String.append_assoc] at h
      obtain ⟨h1, h2⟩ := number_split (hnd l s hs) (hnd l' s' hs') (prefix_cancel " " h)
      rw [h1, ih h2]

/-- numbers each followed by a separator, before a text that does not begin by a digit -/
theorem joined_split {sep : String} (hsep : ∃ c, sep.toList.head? = some c ∧ c.isDigit = false) {l l' : List Index}
    {s s' : String} (hs : ∃ c, s.toList.head? = some c ∧ c.isDigit = false)
    (hs' : ∃ c, s'.toList.head? = some c ∧ c.isDigit = false)
    (h : String.join (l.map fun v => toString v ++ sep) ++ s = String.join (l'.map fun v => toString v ++ sep) ++ s') :
    l = l' := by
  have hclash : ∀ (n : Index) (r s : String), (∃ c, s.toList.head? = some c ∧ c.isDigit = false) →
      s = toString n ++ r → False := by
    intro n r s ⟨c, h1, h2⟩ h
    have h3 := congrArg String.toList h
    rw [String.toList_append] at h3
    obtain ⟨d, r', hd⟩ : ∃ d r', (toString n).toList = d :: r' := by
      have : (toString n).toList ≠ [] := by
        rw [Nat.toString_eq_repr, Nat.toList_repr]; exact Nat.toDigits_ne_nil
      match h : (toString n).toList, this with
      | d :: r', _ => exact ⟨d, r', rfl⟩
    rw [hd] at h3
    rw [h3] at h1; cases h1
    have h5 := number_digits n c (by rw [hd]; exact List.mem_cons_self)
    rw [h2] at h5; cases h5
  induction l generalizing l' with
  | nil =>
    cases l' with
    | nil => rfl
    | cons n l' =>
      simp only [List.map_nil, List.map_cons, String.join_nil, String.join_cons, String.empty_append, String.append_assoc] at h
      exact (hclash n _ s hs h).elim
  | cons n l ih =>
    cases l' with
    | nil =>
      simp only [List.map_nil, List.map_cons, String.join_nil, String.join_cons, String.empty_append, String.append_assoc] at h
      exact (hclash n _ s' hs' h.symm).elim
    | cons k l' =>
      simp only [List.map_cons, String.join_cons, String.append_assoc] at h
      obtain ⟨h1, h2⟩ := number_split (noDigit_append hsep _) (noDigit_append hsep _) h
      rw [h1, ih (prefix_cancel sep h2)]

/-! ### claims -/

theorem identifies_or {α β : Type} {key : α → β} {claim : α → String → Prop} (h : Identifies key claim)
    {claim' : α → String → Prop} (hi : ∀ x t, claim' x t → claim x t) : Identifies key claim' :=
  fun x y t hx hy => h x y t (hi x t hx) (hi y t hy)

theorem identifies_colocated (lib : Library P) (points : List P) : Identifies id (ColocatedSays lib points) := by
  rintro x y t ⟨_, _, _, p, _, _, _, hx⟩ ⟨_, _, _, q, _, _, _, hy⟩
  have h := hx.symm.trans hy
  simp only [String.append_assoc] at h
  refine spaced_split ?_ ?_ (prefix_cancel _ h)
  · exact ⟨'a', _, by rw [String.toList_append]; rfl, by decide⟩
  · exact ⟨'a', _, by rw [String.toList_append]; rfl, by decide⟩

theorem identifies_componentColocated (lib : ModelLibrary P) (kind label : String) (points : List P) :
    Identifies id (ComponentColocatedSays lib kind label points) := by
  rintro x y t ⟨_, _, p, _, _, hx⟩ ⟨_, _, q, _, _, hy⟩
  have h := hx.symm.trans hy
  simp only [String.append_assoc] at h
  refine spaced_split ?_ ?_ (prefix_cancel _ (prefix_cancel _ (prefix_cancel _ h)))
  · exact ⟨'c', _, by rw [String.toList_append]; rfl, by decide⟩
  · exact ⟨'c', _, by rw [String.toList_append]; rfl, by decide⟩

theorem identifies_uniqueColocated (lib : ModelLibrary P) (m : ModelData P) :
    Identifies id (ColocatedUniqueVerticesSays lib m) := by
  rintro x y t ⟨_, _, p, _, _, _, hx⟩ ⟨_, _, q, _, _, _, hy⟩
  have h := hx.symm.trans hy
  simp only [String.append_assoc] at h
  refine spaced_split ?_ ?_ (prefix_cancel _ h)
  · exact ⟨'a', _, by rw [String.toList_append]; rfl, by decide⟩
  · exact ⟨'a', _, by rw [String.toList_append]; rfl, by decide⟩

theorem identifies_differentPoints : Identifies id fun (uv : Index) t =>
    t = "unique vertex " ++ toString uv ++ " is linked to several mesh vertices on different positions" := by
  intro x y t hx hy
  have h := hx.symm.trans hy
  simp only [String.append_assoc] at h
  exact (number_split (noDigit_of ⟨' ', rfl, by decide⟩) (noDigit_of ⟨' ', rfl, by decide⟩) (prefix_cancel _ h)).1

theorem identifies_curveEdge (mesh : CurveData P) : Identifies id (CurveEdgeSays mesh) := by
  intro x y t hx hy
  have h := Eq.trans (Eq.symm hx) hy
  simp only [String.append_assoc] at h
  exact (number_split (noDigit_append ⟨',', rfl, by decide⟩ _) (noDigit_append ⟨',', rfl, by decide⟩ _)
    (prefix_cancel _ h)).1

theorem identifies_smallEdge (lib : Library P) (points : List P) (edgeVertices : Index → Index × Index) :
    Identifies edgeVertices (SmallEdgeSays lib points edgeVertices) := by
  intro x y t hx hy
  have h := Eq.trans (Eq.symm hx) hy
  simp only [String.append_assoc] at h
  obtain ⟨h1, h2⟩ := two_numbers ⟨' ', rfl, by decide⟩ (noDigit_append ⟨',', rfl, by decide⟩ _)
    (noDigit_append ⟨',', rfl, by decide⟩ _) h
  exact Prod.ext h1 h2

theorem identifies_vertex (lib : Library P) (points : List P) : Identifies id (VertexSays lib points) := by
  intro x y t hx hy
  have h := Eq.trans (Eq.symm hx) hy
  simp only [String.append_assoc] at h
  exact (number_split (noDigit_append ⟨',', rfl, by decide⟩ _) (noDigit_append ⟨',', rfl, by decide⟩ _)
    (prefix_cancel _ h)).1

/-- A text beginning by a number is not one beginning by a letter. -/
theorem number_not_letter {n : Nat} {s r : String} (hs : ∃ c, s.toList.head? = some c ∧ c.isDigit = false)
    (h : toString n ++ r = s) : False := by
  obtain ⟨c, h1, h2⟩ := hs
  obtain ⟨d, r', hd⟩ : ∃ d r', (toString n).toList = d :: r' := by
    have : (toString n).toList ≠ [] := by
      rw [Nat.toString_eq_repr, Nat.toList_repr]; exact Nat.toDigits_ne_nil
    match h : (toString n).toList, this with
    | d :: r', _ => exact ⟨d, r', rfl⟩
  rw [← h, String.toList_append, hd] at h1
  have h3 : d = c := Option.some.inj h1
  have h5 := number_digits n d (by rw [hd]; exact List.mem_cons_self)
  rw [h3, h2] at h5; cases h5

theorem identifies_surfaceEdge (mesh : SurfaceMesh) : Identifies id (SurfaceEdgeSays mesh) := by
  have hsplit : "edge between vertices with index " = "edge between vertices " ++ "with index " := by decide
  have hn : ∀ s, ∃ c, ("with index " ++ s : String).toList.head? = some c ∧ c.isDigit = false :=
    fun s => ⟨'w', by rw [String.toList_append]; rfl, by decide⟩
  have hform : ∀ x t, SurfaceEdgeSays mesh x t →
      t = "edge between vertices " ++ (toString x.1 ++ (" and " ++ (toString x.2 ++
        " is not manifold (detected as on border)."))) ∨
      t = "edge between vertices with index " ++ (toString x.1 ++ (" and index " ++ (toString x.2 ++
        " is not manifold (detected as not on border)."))) := by
    intro x t hx
    cases hx with
    | border _ _ => left; simp only [String.append_assoc]
    | inside _ _ => right; simp only [String.append_assoc]
  intro x y t hx hy
  rcases hform x t hx with hx | hx <;> rcases hform y t hy with hy | hy <;> have ht := hx.symm.trans hy
  · obtain ⟨h1, h2⟩ := two_numbers ⟨' ', rfl, by decide⟩ (noDigit_of ⟨' ', rfl, by decide⟩)
      (noDigit_of ⟨' ', rfl, by decide⟩) ht
    exact Prod.ext h1 h2
  · rw [hsplit, String.append_assoc] at ht
    exact (number_not_letter (hn _) (prefix_cancel _ ht)).elim
  · rw [hsplit, String.append_assoc] at ht
    exact (number_not_letter (hn _) (prefix_cancel _ ht.symm)).elim
  · obtain ⟨h1, h2⟩ := two_numbers ⟨' ', rfl, by decide⟩ (noDigit_of ⟨' ', rfl, by decide⟩)
      (noDigit_of ⟨' ', rfl, by decide⟩) ht
    exact Prod.ext h1 h2

/-- Texts beginning by different letters are different. -/
theorem heads_differ {p q r s : String} {c d : Char} (hp : p.toList.head? = some c) (hq : q.toList.head? = some d)
    (hcd : c ≠ d) (h : p ++ r = q ++ s) : False := by
  have h1 := congrArg (fun s => s.toList.head?) h
  simp only [String.toList_append, List.head?_append, hp, hq] at h1
  exact hcd (Option.some.inj h1)

theorem identifies_solidEdge (mesh : SolidTopo) : Identifies id (SolidEdgeSays mesh) := by
  have hform : ∀ x t, SolidEdgeSays mesh x t →
      t = "Could not check manifold on edge between vertices with index " ++ (toString x.1 ++ (" and index " ++
        (toString x.2 ++ "; Check issues with solid adjacencies."))) ∨
      t = "Non manifold edge between vertices " ++ (toString x.1 ++ (" and " ++ toString x.2)) := by
    intro x t hx
    cases hx with
    | notFound _ _ _ => left; simp only [String.append_assoc]
    | found _ _ _ _ => right; simp only [String.append_assoc]
  intro x y t hx hy
  rcases hform x t hx with hx | hx <;> rcases hform y t hy with hy | hy <;> have ht := hx.symm.trans hy
  · obtain ⟨h1, h2⟩ := two_numbers ⟨' ', rfl, by decide⟩ (noDigit_of ⟨';', rfl, by decide⟩)
      (noDigit_of ⟨';', rfl, by decide⟩) ht
    exact Prod.ext h1 h2
  · exact (heads_differ (c := 'C') (d := 'N') rfl rfl (by decide) ht).elim
  · exact (heads_differ (c := 'N') (d := 'C') rfl rfl (by decide) ht).elim
  · obtain ⟨h1, h2⟩ := two_numbers_last ⟨' ', rfl, by decide⟩ ht
    exact Prod.ext h1 h2

theorem identifies_solidFacet : Identifies id SolidFacetSays := by
  intro x y t hx hy
  have h := Eq.trans (Eq.symm hx) hy
  simp only [String.append_assoc] at h
  exact joined_split ⟨',', rfl, by decide⟩ ⟨'i', rfl, by decide⟩ ⟨'i', rfl, by decide⟩ (prefix_cancel _ h)

theorem identifies_polygonEdge : Identifies id PolygonEdgeSays := by
  intro x y t hx hy
  have h := Eq.trans (Eq.symm hx) hy
  simp only [String.append_assoc] at h
  obtain ⟨h1, h2⟩ := two_numbers ⟨' ', rfl, by decide⟩ (noDigit_of ⟨' ', rfl, by decide⟩)
    (noDigit_of ⟨' ', rfl, by decide⟩) h
  exact Prod.ext h2 h1

theorem identifies_polyhedronFacet : Identifies id PolyhedronFacetSays := by
  intro x y t hx hy
  have h := Eq.trans (Eq.symm hx) hy
  simp only [String.append_assoc] at h
  obtain ⟨h1, h2⟩ := two_numbers ⟨' ', rfl, by decide⟩ (noDigit_of ⟨' ', rfl, by decide⟩)
    (noDigit_of ⟨' ', rfl, by decide⟩) h
  exact Prod.ext h2 h1

theorem identifies_modelPolygonEdge (m : ModelData P) (f : FaceData P) : Identifies id (ModelPolygonEdgeSays m f) := by
  intro x y t hx hy
  have hform : ∀ x, ModelPolygonEdgeSays m f x t →
      ∃ r, t = "edge " ++ (toString x.2 ++ (" of polygon " ++ (toString x.1 ++ r))) ∧ NoDigit r := by
    intro x hx
    cases hx with
    | wrong _ => exact ⟨" has wrong adjacencies", by simp only [String.append_assoc], noDigit_of ⟨' ', rfl, by decide⟩⟩
    | border _ => exact ⟨" has no adjacencies but is not part of a model Line.", by simp only [String.append_assoc], noDigit_of ⟨' ', rfl, by decide⟩⟩
  obtain ⟨r, hx, hr⟩ := hform x hx
  obtain ⟨r', hy, hr'⟩ := hform y hy
  obtain ⟨h1, h2⟩ := two_numbers ⟨' ', rfl, by decide⟩ hr hr' (hx.symm.trans hy)
  exact Prod.ext h2 h1

theorem identifies_modelFacet (lib : ModelLibrary P) (m : ModelData P) (b : VolumeData P) :
    Identifies id (ModelPolyhedronFacetSays lib m b) := by
  intro x y t hx hy
  have hform : ∀ x, ModelPolyhedronFacetSays lib m b x t →
      ∃ r, t = "facet " ++ (toString x.2 ++ (" of polyhedron " ++ (toString x.1 ++ r))) ∧ NoDigit r := by
    intro x hx
    cases hx with
    | wrong _ => exact ⟨" has wrong adjacencies", by simp only [String.append_assoc], noDigit_of ⟨' ', rfl, by decide⟩⟩
    | border _ => exact ⟨" has no adjacencies but is not part of a model Surface.", by simp only [String.append_assoc], noDigit_of ⟨' ', rfl, by decide⟩⟩
  obtain ⟨r, hx, hr⟩ := hform x hx
  obtain ⟨r', hy, hr'⟩ := hform y hy
  obtain ⟨h1, h2⟩ := two_numbers ⟨' ', rfl, by decide⟩ hr hr' (hx.symm.trans hy)
  exact Prod.ext h2 h1

theorem identifies_modelEdges (lib : ModelLibrary P) (m : ModelData P) : Identifies Prod.fst (ModelEdgeSays lib m) := by
  intro x y t hx hy
  have hform : ∀ x, ModelEdgeSays lib m x t →
      ∃ r, t = "Model edge between unique vertices " ++ (toString x.1.1 ++ (" and " ++ (toString x.1.2 ++ r))) ∧
        NoDigit r := by
    intro x hx
    cases hx with
    | surfaces _ _ _ => exact ⟨_, by simp only [String.append_assoc]; rfl, noDigit_append ⟨' ', rfl, by decide⟩ _⟩
    | line _ _ _ _ => exact ⟨_, by simp only [String.append_assoc]; rfl, noDigit_append ⟨' ', rfl, by decide⟩ _⟩
  obtain ⟨r, hx, hr⟩ := hform x hx
  obtain ⟨r', hy, hr'⟩ := hform y hy
  obtain ⟨h1, h2⟩ := two_numbers ⟨' ', rfl, by decide⟩ hr hr' (hx.symm.trans hy)
  exact Prod.ext h1 h2

theorem identifies_modelFacets (lib : ModelLibrary P) (m : ModelData P) : Identifies Prod.fst (ModelFacetSays lib m) := by
  intro x y t hx hy
  have hform : ∀ x, ModelFacetSays lib m x t → ∃ r, t = "Model facet between unique vertices " ++
      (String.join (x.1.map fun v => toString v ++ " ") ++ r) ∧ ∃ c, r.toList.head? = some c ∧ c.isDigit = false := by
    intro x hx
    cases hx with
    | surface _ _ _ =>
      exact ⟨_, by simp only [String.append_assoc]; rfl, ' ', by rw [String.toList_append]; rfl, by decide⟩
  obtain ⟨r, hx, hr⟩ := hform x hx
  obtain ⟨r', hy, hr'⟩ := hform y hy
  exact joined_split ⟨' ', rfl, by decide⟩ hr hr' (prefix_cancel _ (hx.symm.trans hy))

theorem identifies_designated : Identifies id DesignatesVertex := by
  have hsp : ∀ r : String, NoDigit (" " ++ r) := fun r => noDigit_append ⟨' ', rfl, by decide⟩ r
  have hsplit : "unique vertex with index " = "unique vertex " ++ "with index " := by decide
  have hn : ∀ s, ∃ c, ("with index " ++ s : String).toList.head? = some c ∧ c.isDigit = false :=
    fun s => ⟨'w', by rw [String.toList_append]; rfl, by decide⟩
  rintro x y t ⟨i, hi, r, hx⟩ ⟨j, hj, s, hy⟩
  have h := hx.symm.trans hy
  simp only [String.append_assoc] at h
  simp only [List.mem_cons, List.not_mem_nil, or_false] at hi hj
  rcases hi with rfl | rfl | rfl <;> rcases hj with rfl | rfl | rfl
  · exact (number_split (hsp _) (hsp _) (prefix_cancel _ h)).1
  · exact (heads_differ (c := 'u') (d := 'U') rfl rfl (by decide) h).elim
  · rw [hsplit, String.append_assoc] at h; exact (number_not_letter (hn _) (prefix_cancel _ h)).elim
  · exact (heads_differ (c := 'U') (d := 'u') rfl rfl (by decide) h).elim
  · exact (number_split (hsp _) (hsp _) (prefix_cancel _ h)).1
  · exact (heads_differ (c := 'U') (d := 'u') rfl rfl (by decide) h).elim
  · rw [hsplit, String.append_assoc] at h; exact (number_not_letter (hn _) (prefix_cancel _ h.symm)).elim
  · exact (heads_differ (c := 'u') (d := 'U') rfl rfl (by decide) h).elim
  · exact (number_split (hsp _) (hsp _) (prefix_cancel _ h)).1

theorem identifies_meshVertex (id' : Uuid) : Identifies id (GivesMeshVertex id') := by
  intro x y t hx hy
  have h := Eq.trans (Eq.symm hx) hy
  simp only [String.append_assoc] at h
  exact (number_split (noDigit_of ⟨' ', rfl, by decide⟩) (noDigit_of ⟨' ', rfl, by decide⟩) (prefix_cancel _ h)).1

end Inspector
