import Verif.Spec.Topology
import Verif.Proofs.Common
import Verif.Proofs.Degeneration
/-! Lemmas on the topology criteria: results of checks, loops and folds. -/
namespace Inspector
open Spec

/-- The check succeeds, and gives a message exactly when `P` holds. -/
def Answers (e : Except Failure (Option String)) (P : Prop) : Prop :=
  ∃ o, e = .ok o ∧ (o.isSome = true ↔ P)

/-- The test succeeds, and is true exactly when `P` holds. -/
def Decides (e : Except Failure Bool) (P : Prop) : Prop :=
  ∃ b, e = .ok b ∧ (b = true ↔ P)

theorem Answers.congr {e : Except Failure (Option String)} {P Q : Prop} (h : Answers e P) (hpq : P ↔ Q) :
    Answers e Q := by
  obtain ⟨o, ho, hp⟩ := h
  exact ⟨o, ho, hp.trans hpq⟩

theorem Decides.congr {e : Except Failure Bool} {P Q : Prop} (h : Decides e P) (hpq : P ↔ Q) :
    Decides e Q := by
  obtain ⟨o, ho, hp⟩ := h
  exact ⟨o, ho, hp.trans hpq⟩

theorem answers_none {P : Prop} (h : ¬ P) : Answers (.ok none) P := ⟨none, rfl, by simp [h]⟩
theorem answers_some {P : Prop} (s : String) (h : P) : Answers (.ok (some s)) P := ⟨some s, rfl, by simp [h]⟩

theorem answers_ite {c : Bool} {a b : Except Failure (Option String)} {P : Prop}
    (ha : c = true → Answers a P) (hb : c = false → Answers b P) :
    Answers (if c = true then a else b) P := by
  cases h : c
  · simpa using hb h
  · simpa using ha h

theorem answers_iteP {c : Prop} [Decidable c] {a b : Except Failure (Option String)} {P : Prop}
    (ha : c → Answers a P) (hb : ¬ c → Answers b P) :
    Answers (if c then a else b) P := by
  split
  · exact ha ‹_›
  · exact hb ‹_›

theorem findSomeM_answers {α : Type} (f : α → Except Failure (Option String)) (P : α → Prop) (l : List α)
    (h : ∀ x ∈ l, Answers (f x) (P x)) : Answers (findSomeM f l) (∃ x ∈ l, P x) := by
  induction l with
  | nil => exact answers_none (by simp)
  | cons x l ih =>
    obtain ⟨o, ho, hp⟩ := h x (by simp)
    obtain ⟨o', ho', hp'⟩ := ih (fun y hy => h y (by simp [hy]))
    unfold findSomeM
    rw [ho]
    cases o with
    | none =>
      refine ⟨o', ho', ?_⟩
      simp only [Option.isSome_none, Bool.false_eq_true, false_iff] at hp
      rw [hp']
      simp [hp]
    | some s =>
      simp only [Option.isSome_some, true_iff] at hp
      exact answers_some _ ⟨x, by simp, hp⟩

/-! ### Components -/

theorem component_ok {m : TopologyModel} {kind : ComponentType} {id : Uuid}
    (hn : ((m.components kind).map TopologyComponent.id).Nodup) (h : Has m kind id) :
    ∃ c, m.component kind id = .ok c ∧ c ∈ m.components kind ∧ c.id = id ∧
      (c.active = true ↔ Active m kind id) := by
  obtain ⟨c, hc, hid⟩ := h
  have : ((m.components kind).find? fun c => c.id == id).isSome := by
    rw [List.find?_isSome]
    exact ⟨c, hc, by simp [hid]⟩
  obtain ⟨d, hd⟩ := Option.isSome_iff_exists.1 this
  have hmem := List.mem_of_find?_eq_some hd
  have hdid : d.id = id := by simpa using List.find?_some hd
  refine ⟨d, by unfold TopologyModel.component; rw [hd], hmem, hdid, ?_, ?_⟩
  · intro ha
    exact ⟨d, hmem, hdid, ha⟩
  · rintro ⟨e, he, heid, hea⟩
    have : e = d := List.inj_on_of_nodup_map hn he hmem (by rw [heid, hdid])
    rw [← this]; exact hea

theorem active_has {m : TopologyModel} {kind : ComponentType} {id : Uuid} (h : Active m kind id) :
    Has m kind id := by
  obtain ⟨c, hc, hid, _⟩ := h
  exact ⟨c, hc, hid⟩

theorem ifActive_pos {β : Type} {m : TopologyModel} {kind : ComponentType} {cmv : ComponentMeshVertex}
    {skip body : Except Failure β} (hn : ((m.components kind).map TopologyComponent.id).Nodup)
    (h : ActiveCmv m kind cmv) : ifActive m kind cmv skip body = body := by
  obtain ⟨c, hc, _, _, hact⟩ := component_ok hn (active_has h.2)
  unfold ifActive
  rw [hc]
  simp [h.1, hact.2 h.2]

theorem ifActive_neg {β : Type} {m : TopologyModel} {kind : ComponentType} {cmv : ComponentMeshVertex}
    {skip body : Except Failure β} (hn : ((m.components kind).map TopologyComponent.id).Nodup)
    (hh : Has m cmv.component_id.type cmv.component_id.id)
    (h : ¬ ActiveCmv m kind cmv) : ifActive m kind cmv skip body = skip := by
  unfold ifActive
  by_cases ht : cmv.component_id.type = kind
  · rw [ht] at hh
    obtain ⟨c, hc, _, _, hact⟩ := component_ok hn hh
    rw [hc]
    have : ¬ c.active = true := fun hc' => h ⟨ht, hact.1 hc'⟩
    simp [ht, this]
  · simp [ht]

theorem activeAt_iff {m : TopologyModel} {v : Index} {kind : ComponentType} {P : Uuid → Prop} :
    (∃ cmv ∈ m.componentMeshVertices v, ActiveCmv m kind cmv ∧ P cmv.component_id.id) ↔
    ∃ id, ActiveAt m v kind id ∧ P id := by
  constructor
  · rintro ⟨cmv, hm, ⟨ht, ha⟩, hp⟩
    exact ⟨_, ⟨⟨cmv, hm, by rw [← ht]⟩, ha⟩, hp⟩
  · rintro ⟨id, ⟨⟨cmv, hm, hc⟩, ha⟩, hp⟩
    refine ⟨cmv, hm, ⟨by rw [hc], by rw [hc]; exact ha⟩, by rw [hc]; exact hp⟩

theorem at_iff {m : TopologyModel} {v : Index} {kind : ComponentType} {P : Uuid → Prop} :
    (∃ cmv ∈ m.componentMeshVertices v, cmv.component_id.type = kind ∧ P cmv.component_id.id) ↔
    ∃ id, At m v kind id ∧ P id := by
  constructor
  · rintro ⟨cmv, hm, ht, hp⟩
    exact ⟨_, ⟨cmv, hm, by rw [← ht]⟩, hp⟩
  · rintro ⟨id, ⟨cmv, hm, hc⟩, hp⟩
    exact ⟨cmv, hm, by rw [hc], by rw [hc]; exact hp⟩

/-- The usual loop over the active components of a kind at a unique vertex. -/
theorem activeLoop_answers {m : TopologyModel} (wf : WellFormed m) {v : Index} (hv : v < m.nbUniqueVertices)
    (kind : ComponentType) (body : ComponentMeshVertex → Except Failure (Option String)) (P : Uuid → Prop)
    (h : ∀ cmv ∈ m.componentMeshVertices v, ActiveCmv m kind cmv → Answers (body cmv) (P cmv.component_id.id)) :
    Answers (findSomeM (fun cmv => ifActive m kind cmv (.ok none) (body cmv)) (m.componentMeshVertices v))
      (∃ id, ActiveAt m v kind id ∧ P id) := by
  refine (findSomeM_answers _ (fun cmv => ActiveCmv m kind cmv ∧ P cmv.component_id.id) _ ?_).congr activeAt_iff
  intro cmv hm
  by_cases ha : ActiveCmv m kind cmv
  · rw [ifActive_pos (wf.ids kind) ha]
    exact (h cmv hm ha).congr ⟨fun hp => ⟨ha, hp⟩, fun hp => hp.2⟩
  · rw [ifActive_neg (wf.ids kind) (wf.vertices v hv cmv hm) ha]
    exact answers_none (fun hp => ha hp.1)

theorem hasActive_decides {m : TopologyModel} (wf : WellFormed m) {v : Index} (hv : v < m.nbUniqueVertices)
    (kind : ComponentType) :
    Decides (hasActive m kind (m.componentMeshVertices v)) (∃ id, ActiveAt m v kind id) := by
  have key : ∀ l : List ComponentMeshVertex,
      (∀ cmv ∈ l, Has m cmv.component_id.type cmv.component_id.id) →
      Decides (hasActive m kind l) (∃ cmv ∈ l, ActiveCmv m kind cmv) := by
    intro l
    induction l with
    | nil => intro _; exact ⟨false, rfl, by simp⟩
    | cons cmv l ih =>
      intro hl
      rw [hasActive]
      by_cases ha : ActiveCmv m kind cmv
      · rw [ifActive_pos (wf.ids kind) ha]
        exact ⟨true, rfl, by simp [ha]⟩
      · rw [ifActive_neg (wf.ids kind) (hl cmv (by simp)) ha]
        refine (ih (fun c hc => hl c (by simp [hc]))).congr ?_
        simp [ha]
  refine (key _ (wf.vertices v hv)).congr ?_
  have := @activeAt_iff m v kind (fun _ => True)
  simpa using this

/-! ### Lists of uuids -/

theorem mem_componentsUuids {m : TopologyModel} {v : Index} {kind : ComponentType} {id : Uuid} :
    id ∈ componentsUuids m v kind ↔ At m v kind id := by
  unfold componentsUuids At
  rw [List.mem_dedup, List.mem_insertionSort, List.mem_map]
  constructor
  · rintro ⟨cmv, hc, rfl⟩
    rw [List.mem_filter] at hc
    refine ⟨cmv, hc.1, ?_⟩
    have : cmv.component_id.type = kind := by simpa using hc.2
    rw [← this]
  · rintro ⟨cmv, hm, hc⟩
    exact ⟨cmv, by simp [List.mem_filter, hm, hc], by rw [hc]⟩

theorem componentsUuids_nodup (m : TopologyModel) (v : Index) (kind : ComponentType) :
    (componentsUuids m v kind).Nodup := List.nodup_dedup _

theorem singleton_iff {α : Type} {l : List α} (hn : l.Nodup) (a : α) :
    l = [a] ↔ a ∈ l ∧ ∀ x ∈ l, x = a := by
  constructor
  · rintro rfl; simp
  · rintro ⟨ha, hall⟩
    match l, hn, ha, hall with
    | [x], _, _, hall => rw [hall x (by simp)]
    | x :: y :: t, hn, _, hall =>
      exfalso
      have h1 := hall x (by simp)
      have h2 := hall y (by simp)
      rw [h1, h2] at hn
      simp at hn

theorem three_iff {α : Type} {l : List α} (hn : l.Nodup) :
    2 < l.length ↔ ∃ a b c, a ≠ b ∧ a ≠ c ∧ b ≠ c ∧ a ∈ l ∧ b ∈ l ∧ c ∈ l := by
  constructor
  · intro h
    match l, hn, h with
    | a :: b :: c :: t, hn, _ =>
      simp only [List.nodup_cons, List.mem_cons, not_or] at hn
      exact ⟨a, b, c, hn.1.1, hn.1.2.1, hn.2.1.1, by simp, by simp, by simp⟩
  · rintro ⟨a, b, c, hab, hac, hbc, ha, hb, hc⟩
    have : ([a, b, c] : List α).Nodup := by simp [hab, hac, hbc]
    have hs : [a, b, c] ⊆ l := by
      intro x hx
      simp only [List.mem_cons, List.not_mem_nil, or_false] at hx
      rcases hx with rfl | rfl | rfl <;> assumption
    exact (this.subperm hs).length_le

theorem two_iff {α : Type} {l : List α} (hn : l.Nodup) :
    1 < l.length ↔ ∃ a b, a ≠ b ∧ a ∈ l ∧ b ∈ l := by
  constructor
  · intro h
    match l, hn, h with
    | a :: b :: t, hn, _ =>
      simp only [List.nodup_cons, List.mem_cons, not_or] at hn
      exact ⟨a, b, hn.1.1, by simp, by simp⟩
  · rintro ⟨a, b, hab, ha, hb⟩
    have : ([a, b] : List α).Nodup := by simp [hab]
    have hs : [a, b] ⊆ l := by
      intro x hx
      simp only [List.mem_cons, List.not_mem_nil, or_false] at hx
      rcases hx with rfl | rfl <;> assumption
    exact (this.subperm hs).length_le

theorem allMeshed_iff {m : TopologyModel} {kind : ComponentType} :
    (!loopAny (fun c => c.nbElements == 0) (m.components kind)) = true ↔ AllMeshed m kind := by
  rw [Bool.not_eq_true', ← Bool.not_eq_true, loopAny_iff]
  unfold AllMeshed
  simp

theorem mem_related {m : TopologyModel} {l : List ComponentID} {kind : ComponentType} {id : Uuid} :
    id ∈ m.related l kind ↔ ⟨kind, id⟩ ∈ l := by
  unfold TopologyModel.related
  rw [List.mem_map]
  constructor
  · rintro ⟨c, hc, rfl⟩
    rw [List.mem_filter] at hc
    have : c.type = kind := by simpa using hc.2
    rw [← this]; exact hc.1
  · intro h
    exact ⟨_, List.mem_filter.2 ⟨h, by simp⟩, rfl⟩

/-! ### Counting loops -/

theorem sublist_two_cons {α : Type} {P : α → Prop} {x : α} {l : List α} :
    (∃ a b, [a, b].Sublist (x :: l) ∧ P a ∧ P b) ↔
    (P x ∧ ∃ b ∈ l, P b) ∨ ∃ a b, [a, b].Sublist l ∧ P a ∧ P b := by
  constructor
  · rintro ⟨a, b, hs, ha, hb⟩
    rcases List.sublist_cons_iff.1 hs with h | ⟨r, hr, hrl⟩
    · exact Or.inr ⟨a, b, h, ha, hb⟩
    · left
      simp only [List.cons.injEq] at hr
      obtain ⟨rfl, rfl⟩ := hr
      exact ⟨ha, b, hrl.subset (by simp), hb⟩
  · rintro (⟨hx, b, hb, hpb⟩ | ⟨a, b, hs, ha, hb⟩)
    · exact ⟨x, b, (List.singleton_sublist.2 hb).cons_cons x, hx, hpb⟩
    · exact ⟨a, b, hs.cons x, ha, hb⟩

theorem twiceActive_iff {m : TopologyModel} {v : Index} {kind : ComponentType} :
    TwiceActive m v kind ↔ ∃ a b, [a, b].Sublist (m.componentMeshVertices v) ∧
      ActiveCmv m kind a ∧ ActiveCmv m kind b := by
  unfold TwiceActive ActiveCmv
  constructor
  · rintro ⟨a, b, h1, h2, h3, h4, h5⟩; exact ⟨a, b, h1, ⟨h2, h3⟩, h4, h5⟩
  · rintro ⟨a, b, h1, ⟨h2, h3⟩, h4, h5⟩; exact ⟨a, b, h1, h2, h3, h4, h5⟩

/-! ### Folds over unique vertices -/

/-- The value of a check, `none` if it fails. -/
def okOr (e : Except Failure (Option String)) : Option String :=
  match e with
  | .ok o => o
  | .error _ => none

theorem Answers.eq {e : Except Failure (Option String)} {P : Prop} (h : Answers e P) : e = .ok (okOr e) := by
  obtain ⟨o, ho, _⟩ := h
  rw [ho]; rfl

theorem Answers.iff {e : Except Failure (Option String)} {P : Prop} (h : Answers e P) :
    (okOr e).isSome = true ↔ P := by
  obtain ⟨o, ho, hp⟩ := h
  rw [ho]; exact hp

theorem foldlM_step {R α : Type} (body : R → α → Except Failure R) (step : R → α → R) (l : List α)
    (h : ∀ r, ∀ x ∈ l, body r x = .ok (step r x)) (r : R) : l.foldlM body r = .ok (l.foldl step r) := by
  induction l generalizing r with
  | nil => rfl
  | cons x l ih =>
    rw [List.foldlM_cons, h r x (by simp)]
    exact ih (fun r y hy => h r y (by simp [hy])) _

theorem foldl_addOptional {R : Type} (step : R → Index → R) (proj : R → Issues Index)
    (check : Index → Option String) (h : ∀ r v, proj (step r v) = addOptional (proj r) v (check v))
    (l : List Index) (r : R) :
    (proj (l.foldl step r)).issues = (proj r).issues ++ l.filter fun v => (check v).isSome := by
  induction l generalizing r with
  | nil => simp
  | cons v l ih =>
    rw [List.foldl_cons, ih, h]
    unfold addOptional
    cases hc : check v <;> simp [hc, Issues.add]

theorem foldl_keeps {R α β : Type} (step : R → α → R) (proj : R → β)
    (h : ∀ r x, proj (step r x) = proj r) (l : List α) (r : R) : proj (l.foldl step r) = proj r := by
  induction l generalizing r with
  | nil => rfl
  | cons x l ih => rw [List.foldl_cons, ih, h]

/-- A list of unique vertices filled by a check, starting from an empty list. -/
theorem exactly_check {R : Type} (step : R → Index → R) (proj : R → Issues Index)
    (check : Index → Except Failure (Option String)) (P : Index → Prop) (n : Nat)
    (h : ∀ r v, proj (step r v) = addOptional (proj r) v (okOr (check v)))
    (hc : ∀ v < n, Answers (check v) (P v)) (r : R) (hr : (proj r).issues = []) :
    Exactly (· < ·) (fun v => v < n ∧ P v) (proj ((List.range n).foldl step r)).issues := by
  rw [foldl_addOptional step proj (fun v => okOr (check v)) h, hr, List.nil_append]
  refine exactly_filter List.pairwise_lt_range _ _ ?_
  intro v
  rw [List.mem_range]
  constructor
  · rintro ⟨hv, hs⟩; exact ⟨hv, (hc v hv).iff.1 hs⟩
  · rintro ⟨hv, hp⟩; exact ⟨hv, (hc v hv).iff.2 hp⟩

theorem inspectElements_spec (check : Index → Except Failure (Option String)) (d : String) (n : Nat)
    (P : Index → Prop) (hc : ∀ e < n, Answers (check e) (P e)) :
    ∃ s, inspectElements check d n = .ok s ∧ Exactly (· < ·) (fun e => e < n ∧ P e) s.issues := by
  refine ⟨_, foldlM_step _ (fun s e => addOptional s e (okOr (check e))) _ ?_ _, ?_⟩
  · intro r e he
    show (check e >>= fun o => pure (addOptional r e o)) = _
    conv => lhs; rw [(hc e (List.mem_range.1 he)).eq]
    rfl
  · exact exactly_check _ id check P n (fun _ _ => rfl) hc _ rfl

/-! ### Vertices without unique vertex -/

theorem verticesNotAssociated_exactly (m : TopologyModel) (kind : ComponentType) (c : TopologyComponent) :
    Exactly (· < ·) (NotAssociated m kind c) (verticesNotAssociated m kind c).issues := by
  unfold verticesNotAssociated
  rw [collect_issues]
  refine exactly_filter List.pairwise_lt_range _ _ ?_
  intro v
  simp [NotAssociated]

theorem verticesNotAssociated_length (m : TopologyModel) (kind : ComponentType) (c : TopologyComponent) :
    (verticesNotAssociated m kind c).issues.length ≤ c.nbVertices := by
  unfold verticesNotAssociated
  rw [collect_issues]
  refine (List.length_filter_le _ _).trans ?_
  simp

theorem nbIssues_ne_zero {α : Type} {s : Issues α} (h : s.issues.length < 2 ^ 32) :
    (s.nbIssues != 0) = true ↔ s.issues ≠ [] := by
  unfold Issues.nbIssues
  rw [bne_iff_ne, Ne, Ne, ← List.length_eq_zero_iff, ← UInt32.toNat_inj]
  simp [Nat.mod_eq_of_lt h]

/-- Map of the vertices without unique vertex of the components in `comps`. -/
theorem notAssociated_mapReports (m : TopologyModel) (kind : ComponentType) (label d : String)
    (comps : List TopologyComponent) (hn : (comps.map TopologyComponent.id).Nodup)
    (hsz : ∀ c ∈ comps, c.nbVertices < 2 ^ 32) :
    MapReports (comps.foldl (addNotAssociated m kind label) (IssuesMap.new d)) comps TopologyComponent.id
      (fun c l => Exactly (· < ·) (NotAssociated m kind c) l) := by
  have heq : ∀ map c, addNotAssociated m kind label map c =
      map.addIssues c.id ((verticesNotAssociated m kind c).setDescription (label ++ m.label kind c.id)) := by
    intro map c
    unfold addNotAssociated
    by_cases h : (verticesNotAssociated m kind c).nbIssues = 0
    · have : ((verticesNotAssociated m kind c).nbIssues != 0) = false := by simp [h]
      simp only [this]
      have h2 : ((verticesNotAssociated m kind c).setDescription (label ++ m.label kind c.id)).nbIssues = 0 := h
      unfold IssuesMap.addIssues
      simp only [h2]; rfl
    · have : ((verticesNotAssociated m kind c).nbIssues != 0) = true := by simp [h]
      simp only [this, if_true]
  rw [show addNotAssociated m kind label = fun map c => map.addIssues c.id
    ((verticesNotAssociated m kind c).setDescription (label ++ m.label kind c.id)) from
      funext fun map => funext fun c => heq map c]
  refine mapReports_of_adds d comps _ _ _ hn ?_ ?_
  · intro c hc
    exact lt_of_le_of_lt (verticesNotAssociated_length m kind c) (hsz c hc)
  · intro c _
    exact verticesNotAssociated_exactly m kind c

end Inspector
