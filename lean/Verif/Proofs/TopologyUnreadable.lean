import Verif.Proofs.TopologyIf
/-
The embedded lines check of a BRep raises an exception exactly at the unique vertices where the first wrong embedding
is not in a surface of the model.
-/
namespace Inspector
open Spec

theorem findSomeM_error {α : Type} (f : α → Except Failure (Option String)) (l : List α) (e : Failure) :
    findSomeM f l = .error e ↔
      ∃ pre x post, l = pre ++ x :: post ∧ f x = .error e ∧ ∀ y ∈ pre, f y = .ok none := by
  induction l with
  | nil =>
    simp only [findSomeM, reduceCtorEq, false_iff]
    rintro ⟨pre, x, post, h, _⟩
    cases pre <;> cases h
  | cons y l ih =>
    rw [findSomeM]
    cases hy : f y with
    | error e' =>
      simp only [Except.error.injEq]
      constructor
      · rintro rfl
        exact ⟨[], y, l, rfl, hy, fun _ h => by cases h⟩
      · rintro ⟨pre, x, post, h, hx, hp⟩
        cases pre with
        | nil =>
          cases h
          rw [hy] at hx
          exact Except.error.inj hx
        | cons z pre =>
          cases h
          rw [hp y (by simp)] at hy
          cases hy
    | ok o =>
      cases o with
      | some s =>
        simp only [reduceCtorEq, false_iff]
        rintro ⟨pre, x, post, h, hx, hp⟩
        cases pre with
        | nil => cases h; rw [hy] at hx; cases hx
        | cons z pre => cases h; rw [hp y (by simp)] at hy; cases hy
      | none =>
        simp only [ih]
        constructor
        · rintro ⟨pre, x, post, rfl, hx, hp⟩
          refine ⟨y :: pre, x, post, rfl, hx, ?_⟩
          intro z hz
          rcases List.mem_cons.1 hz with rfl | hz
          · exact hy
          · exact hp z hz
        · rintro ⟨pre, x, post, h, hx, hp⟩
          cases pre with
          | nil => cases h; rw [hy] at hx; cases hx
          | cons z pre =>
            cases h
            exact ⟨pre, x, post, rfl, hx, fun w hw => hp w (by simp [hw])⟩

variable {m : TopologyModel} (wf : WellFormed m) {v : Index}

/-- the body of the loop over the embeddings of a line -/
def embeddingBody (m : TopologyModel) (v : Index) (line : Uuid) (embedding : ComponentID) :
    Except Failure (Option String) :=
  if m.isBoundary line embedding.id then
    match m.component .surface embedding.id with
    | .error f => .error f
    | .ok _ => .ok (some ("unique vertex " ++ toString v ++ " is part of line " ++ m.label .line line ++
        ", which is both boundary and embedded in Surface " ++ m.label .surface embedding.id ++ "."))
  else if embedding.type == .block && !brepBlocksAreMeshed m then .ok none
  else if !(m.componentMeshVertices v).any (fun cmv => cmv.component_id == embedding) then
    match m.component .surface embedding.id with
    | .error f => .error f
    | .ok _ => .ok (some ("unique vertex " ++ toString v ++ " is part of Line " ++ m.label .line line ++
        ", which is embedded in Surface " ++ m.label .surface embedding.id ++
        ", but the unique vertex is not linked to the Surface mesh vertices."))
  else .ok none

theorem embeddingBody_none (line : Uuid) (e : ComponentID) (h : ¬ EmbeddingWrong m v line e) :
    embeddingBody m v line e = .ok none := by
  unfold EmbeddingWrong at h
  rw [not_or] at h
  have hany : (m.componentMeshVertices v).any (fun cmv => cmv.component_id == e) = true ↔ At m v e.type e.id := by
    rw [List.any_eq_true]
    unfold At
    simp
  unfold embeddingBody
  rw [if_neg h.1]
  split
  · rfl
  · rename_i hk
    rw [if_neg]
    rw [Bool.not_eq_true', ← Bool.not_eq_true, hany, not_not]
    by_contra hat
    refine h.2 ⟨fun ht => ?_, hat⟩
    rw [← brepBlocksAreMeshed_iff]
    simpa [ht] using hk

theorem embeddingBody_wrong (line : Uuid) (e : ComponentID) (h : EmbeddingWrong m v line e) :
    (∃ f, m.component .surface e.id = .error f ∧ embeddingBody m v line e = .error f) ∨
    ∃ c s, m.component .surface e.id = .ok c ∧ embeddingBody m v line e = .ok (some s) := by
  have hany : (m.componentMeshVertices v).any (fun cmv => cmv.component_id == e) = true ↔ At m v e.type e.id := by
    rw [List.any_eq_true]
    unfold At
    simp
  unfold embeddingBody
  split
  · cases hc : m.component .surface e.id with
    | error f => exact Or.inl ⟨f, rfl, rfl⟩
    | ok c => exact Or.inr ⟨c, _, rfl, rfl⟩
  · rename_i hb
    have h' := h.resolve_left hb
    rw [if_neg, if_pos]
    · cases hc : m.component .surface e.id with
      | error f => exact Or.inl ⟨f, rfl, rfl⟩
      | ok c => exact Or.inr ⟨c, _, rfl, rfl⟩
    · rw [Bool.not_eq_true', ← Bool.not_eq_true, hany]
      exact h'.2
    · intro hk
      rw [Bool.and_eq_true, beq_iff_eq, Bool.not_eq_true', ← Bool.not_eq_true, brepBlocksAreMeshed_iff] at hk
      exact hk.2 (h'.1 hk.1)

theorem component_missing {kind : ComponentType} {id : Uuid} (h : ¬ Has m kind id) :
    m.component kind id = .error .openGeodeException := by
  unfold TopologyModel.component
  cases hf : (m.components kind).find? (fun c => c.id == id) with
  | none => rfl
  | some c => exact absurd ⟨c, List.mem_of_find?_eq_some hf, by simpa using List.find?_some hf⟩ h

include wf in
theorem embeddingBody_error (line : Uuid) (e : ComponentID) (f : Failure) :
    embeddingBody m v line e = .error f ↔
      f = .openGeodeException ∧ ¬ Has m .surface e.id ∧ EmbeddingWrong m v line e := by
  by_cases hw : EmbeddingWrong m v line e
  · by_cases hh : Has m .surface e.id
    · obtain ⟨c, hc', _⟩ := component_ok (wf.ids _) hh
      rcases embeddingBody_wrong line e hw with ⟨f', hc, hb⟩ | ⟨c, s, hc, hb⟩
      · rw [hc'] at hc
        cases hc
      · rw [hb]
        simp only [reduceCtorEq, false_iff]
        exact fun h => h.2.1 hh
    · have hm := component_missing hh
      rcases embeddingBody_wrong line e hw with ⟨f', hc, hb⟩ | ⟨c, s, hc, hb⟩
      · rw [hm] at hc
        cases hc
        rw [hb]
        constructor
        · intro h; exact ⟨(Except.error.inj h).symm, hh, hw⟩
        · rintro ⟨rfl, _⟩; rfl
      · rw [hm] at hc
        cases hc
  · rw [embeddingBody_none line e hw]
    simp only [reduceCtorEq, false_iff]
    exact fun h => hw h.2.2

include wf in
theorem brepEmbeddingLoop_error (line : Uuid) (f : Failure) :
    brepEmbeddingLoop m v line = .error f ↔ f = .openGeodeException ∧
      ∃ pre e post, m.embeddings line = pre ++ e :: post ∧ ¬ Has m .surface e.id ∧ EmbeddingWrong m v line e ∧
        ∀ e' ∈ pre, ¬ EmbeddingWrong m v line e' := by
  show findSomeM (embeddingBody m v line) (m.embeddings line) = .error f ↔ _
  rw [findSomeM_error]
  constructor
  · rintro ⟨pre, e, post, hl, he, hp⟩
    obtain ⟨h1, h2, h3⟩ := (embeddingBody_error wf line e f).1 he
    refine ⟨h1, pre, e, post, hl, h2, h3, fun e' he' hw => ?_⟩
    rcases embeddingBody_wrong line e' hw with ⟨_, _, hb⟩ | ⟨_, _, _, hb⟩ <;> rw [hp e' he'] at hb <;> cases hb
  · rintro ⟨rfl, pre, e, post, hl, h2, h3, hp⟩
    refine ⟨pre, e, post, hl, ?_, fun e' he' => embeddingBody_none line e' (hp e' he')⟩
    exact (embeddingBody_error wf line e _).2 ⟨rfl, h2, h3⟩

theorem brepEmbeddingLoop_none (line : Uuid) :
    brepEmbeddingLoop m v line = .ok none ↔ ∀ e ∈ m.embeddings line, ¬ EmbeddingWrong m v line e := by
  show findSomeM (embeddingBody m v line) (m.embeddings line) = .ok none ↔ _
  constructor
  · intro h e he hw
    generalize m.embeddings line = l at h he
    induction l with
    | nil => cases he
    | cons x l ih =>
      rw [findSomeM] at h
      by_cases hx : EmbeddingWrong m v line x
      · rcases embeddingBody_wrong line x hx with ⟨_, _, hb⟩ | ⟨_, _, _, hb⟩ <;> rw [hb] at h <;> cases h
      · rw [embeddingBody_none line x hx] at h
        rcases List.mem_cons.1 he with rfl | he
        · exact hx hw
        · exact ih h he
  · intro h
    exact findSomeM_none _ _ (fun e he => embeddingBody_none line e (h e he))

include wf in
/-- The check raises an exception exactly where the first wrong embedding is not in a surface of the model. -/
theorem brepInvalidEmbeddedLine_error (hv : v < m.nbUniqueVertices) (f : Failure) :
    brepInvalidEmbeddedLine m v = .error f ↔ f = .openGeodeException ∧ UnreadableEmbedding m v := by
  unfold brepInvalidEmbeddedLine UnreadableEmbedding
  rw [findSomeM_error]
  have hhas : ∀ c ∈ m.componentMeshVertices v, Has m c.component_id.type c.component_id.id :=
    wf.vertices v hv
  have hskip : ∀ c ∈ m.componentMeshVertices v,
      (ifActive m .line c (.ok none) (brepEmbeddingLoop m v c.component_id.id) = .ok none ↔
        (ActiveCmv m .line c → ∀ e ∈ m.embeddings c.component_id.id, ¬ EmbeddingWrong m v c.component_id.id e)) := by
    intro c hc
    by_cases ha : ActiveCmv m .line c
    · rw [ifActive_pos (wf.ids .line) ha, brepEmbeddingLoop_none]
      exact ⟨fun h _ => h, fun h => h ha⟩
    · rw [ifActive_neg (wf.ids .line) (hhas c hc) ha]
      exact iff_of_true rfl (fun h => absurd h ha)
  constructor
  · rintro ⟨pre, cmv, post, hl, he, hp⟩
    have hmem : ∀ c ∈ pre ++ cmv :: post, c ∈ m.componentMeshVertices v := fun c hc => by rw [hl]; exact hc
    by_cases ha : ActiveCmv m .line cmv
    · rw [ifActive_pos (wf.ids .line) ha, brepEmbeddingLoop_error wf] at he
      exact ⟨he.1, pre, cmv, post, hl, ha, fun c hc => (hskip c (hmem c (by simp [hc]))).1 (hp c hc), he.2⟩
    · rw [ifActive_neg (wf.ids .line) (hhas cmv (hmem cmv (by simp))) ha] at he
      cases he
  · rintro ⟨rfl, pre, cmv, post, hl, ha, hp, he⟩
    have hmem : ∀ c ∈ pre ++ cmv :: post, c ∈ m.componentMeshVertices v := fun c hc => by rw [hl]; exact hc
    refine ⟨pre, cmv, post, hl, ?_, fun c hc => (hskip c (hmem c (by simp [hc]))).2 (hp c hc)⟩
    rw [ifActive_pos (wf.ids .line) ha, brepEmbeddingLoop_error wf]
    exact ⟨rfl, he⟩

theorem unreadable_wrong (h : UnreadableEmbedding m v) : BRepInvalidEmbeddedLine m v := by
  obtain ⟨pre, cmv, post, hl, ha, _, pre', e, post', hl', _, hw, _⟩ := h
  exact ⟨cmv.component_id.id, ⟨⟨cmv, by rw [hl]; simp, by rw [← ha.1]⟩, ha.2⟩, e, by rw [hl']; simp, hw⟩

include wf in
theorem brepEmbeddedLine_answers_of_readable (hv : v < m.nbUniqueVertices) (h : ¬ UnreadableEmbedding m v) :
    Answers (brepInvalidEmbeddedLine m v) (BRepInvalidEmbeddedLine m v) := by
  refine (brepEmbeddedLine_answersIf wf hv).toAnswers ?_
  cases he : brepInvalidEmbeddedLine m v with
  | ok o => exact ⟨o, rfl⟩
  | error f => exact absurd ((brepInvalidEmbeddedLine_error wf hv f).1 he).2 h

/-- Embeddings in surfaces only can be read. -/
theorem readable_of_surfaces (wf : WellFormed m)
    (hs : ∀ line, Active m .line line → ∀ e ∈ m.embeddings line, e.type = .surface) : ¬ LinesUnreadable m := by
  rintro ⟨v, _, pre, cmv, post, _, ha, _, pre', e, post', hl', hn, _⟩
  have he : e ∈ m.embeddings cmv.component_id.id := by rw [hl']; simp
  have := wf.embeddings _ e he
  rw [hs _ ha.2 e he] at this
  exact hn this

/-- A fold which fails failed on an element. -/
theorem foldlM_error {R α : Type} (body : R → α → Except Failure R) (f : Failure) :
    ∀ (l : List α) (r : R), l.foldlM body r = .error f → ∃ r' x, x ∈ l ∧ body r' x = .error f
  | [], r, h => by cases h
  | x :: l, r, h => by
    rw [List.foldlM_cons] at h
    cases hb : body r x with
    | error f' =>
      rw [hb] at h
      have : f' = f := Except.error.inj h
      exact ⟨r, x, by simp, by rw [hb, this]⟩
    | ok r1 =>
      rw [hb] at h
      obtain ⟨r', y, hy, he⟩ := foldlM_error body f l r1 h
      exact ⟨r', y, by simp [hy], he⟩

variable (aw : AroundWellFormed m)

include wf aw in
/-- The inspection of the lines of a BRep whose active lines have unique vertices on their first edge raises an
exception exactly when an embedding is unreadable. -/
theorem brepInspectLines_error
    (hsz : ∀ c ∈ m.components .line, c.nbVertices < 2 ^ 32 ∧ c.nbElements < 2 ^ 32)
    (hu : ∀ c ∈ m.components .line, c.active = true → c.nbElements ≠ 0 →
      ∀ x ∈ m.lineEdgeVertices c.id 0, m.uniqueVertex ⟨⟨.line, c.id⟩, x⟩ ≠ none) (f : Failure) :
    brepInspectLines m = .error f ↔ f = .openGeodeException ∧ LinesUnreadable m := by
  have hrest : ∀ v < m.nbUniqueVertices, (∃ o, brepLineWrongRelationships m v = .ok o) ∧
      (∃ o, brepInvalidSingleLine m v = .ok o) ∧ (∃ o, brepLinesButNotCorner m v = .ok o) := fun v hv =>
    ⟨⟨_, (brepLineWrong_answers wf hv aw (fun c hc ha _ hn x hx => hu c hc ha hn x hx)).eq⟩,
      ⟨_, (brepSingleLine_answers wf hv).eq⟩, ⟨_, (brepLinesButNotCorner_answers wf hv).eq⟩⟩
  have hto : ∀ f, brepInspectLines m = .error f → f = .openGeodeException ∧ LinesUnreadable m := by
    intro f h
    obtain ⟨r0, h0, _⟩ := brepLinesComponents_fold wf aw hsz
    unfold brepInspectLines at h
    rw [h0] at h
    obtain ⟨r, v, hv, he⟩ := foldlM_error _ _ _ _ h
    have hv := List.mem_range.1 hv
    obtain ⟨⟨o2, h2⟩, ⟨o3, h3⟩, ⟨o4, h4⟩⟩ := hrest v hv
    unfold brepLinesVertex at he
    cases h1 : brepInvalidEmbeddedLine m v with
    | error f' =>
      rw [h1] at he
      have : f' = f := Except.error.inj he
      subst this
      obtain ⟨a, b⟩ := (brepInvalidEmbeddedLine_error wf hv f').1 h1
      exact ⟨a, v, hv, b⟩
    | ok o1 =>
      rw [h1, h2, h3, h4] at he
      cases he
  refine ⟨hto f, ?_⟩
  rintro ⟨rfl, v, hv, hun⟩
  cases h : brepInspectLines m with
  | error f => rw [(hto f h).1]
  | ok r =>
    obtain ⟨⟨o, ho⟩, _⟩ := (brepInspectLines_ok_iff wf aw hsz).1 ⟨r, h⟩ v hv
    rw [(brepInvalidEmbeddedLine_error wf hv _).2 ⟨rfl, hun⟩] at ho
    cases ho

include wf in
/-- At a vertex with an unreadable embedding, the boolean function on lines raises the exception. -/
theorem brepLines_unreadable (hv : v < m.nbUniqueVertices) (h : UnreadableEmbedding m v) :
    brepLinesTopologyIsValid m v = .error .openGeodeException := by
  have hact : ∃ id, ActiveAt m v .line id := by
    obtain ⟨line, hl, _⟩ := unreadable_wrong h
    exact ⟨line, hl⟩
  obtain ⟨b, hb, hp⟩ := hasActive_decides wf hv .line
  have hbt : b = true := hp.2 hact
  subst hbt
  unfold brepLinesTopologyIsValid
  rw [hb, (brepInvalidEmbeddedLine_error wf hv _).2 ⟨rfl, h⟩]
  rfl

end Inspector
