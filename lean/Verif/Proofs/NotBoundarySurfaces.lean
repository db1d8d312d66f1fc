import Verif.Spec.NotBoundarySurfaces
import Verif.Proofs.Topology
import Verif.Proofs.FusedSurface
/-! Peeling the surfaces which cannot be boundaries. -/
namespace Inspector
open Spec

variable {m : TopologyModel}

/-- What is known of the graph. -/
structure GraphOk (m : TopologyModel) (E : List GraphEdge) : Prop where
  sound : ∀ e ∈ E, ⟨.line, e.v0⟩ ∈ m.boundaries e.surface ∧ ⟨.line, e.v1⟩ ∈ m.boundaries e.surface
  complete : ∀ line s, ⟨.line, line⟩ ∈ m.boundaries s → ∃ e ∈ E, e.surface = s ∧ (e.v0 = line ∨ e.v1 = line)

theorem addGraphEdge_spec {find : List GraphEdge → Uuid → Uuid → Option Nat} (hf : EdgeFinder find) (line s bl : Uuid)
    (E : List GraphEdge) :
    ∃ t, addGraphEdge find line s E bl = E ++ t ∧ (t = [] ∨ t = [⟨bl, line, s⟩]) ∧
      ∃ e ∈ E ++ t, e.surface = s ∧ ((e.v0 = bl ∧ e.v1 = line) ∨ (e.v0 = line ∧ e.v1 = bl)) := by
  have hnew : ∃ t, E ++ [⟨bl, line, s⟩] = E ++ t ∧ (t = [] ∨ t = [⟨bl, line, s⟩]) ∧
      ∃ e ∈ E ++ t, e.surface = s ∧ ((e.v0 = bl ∧ e.v1 = line) ∨ (e.v0 = line ∧ e.v1 = bl)) :=
    ⟨[⟨bl, line, s⟩], rfl, Or.inr rfl, ⟨bl, line, s⟩, by simp, rfl, Or.inl ⟨rfl, rfl⟩⟩
  unfold addGraphEdge
  cases h : find E bl line with
  | none => exact hnew
  | some i =>
    obtain ⟨e, he, hv⟩ := hf _ _ _ _ h
    simp only [he, Option.map_some]
    by_cases hs : e.surface = s
    · rw [if_pos (by simp [hs])]
      exact ⟨[], by simp, Or.inl rfl, e, by simpa using List.mem_of_getElem? he, hs, hv⟩
    · rw [if_neg (by simp [hs])]; exact hnew

/-- A fold which only appends edges. -/
theorem fold_edges {α : Type} (step : List GraphEdge → α → List GraphEdge) (P : α → GraphEdge → Prop)
    (Q : α → List GraphEdge → Prop) (l : List α)
    (hstep : ∀ E, ∀ x ∈ l, ∃ t, step E x = E ++ t ∧ (∀ e ∈ t, P x e) ∧ Q x (E ++ t))
    (hmono : ∀ x E t, Q x E → Q x (E ++ t)) (E : List GraphEdge) :
    ∃ t, l.foldl step E = E ++ t ∧ (∀ e ∈ t, ∃ x ∈ l, P x e) ∧ ∀ x ∈ l, Q x (E ++ t) := by
  induction l generalizing E with
  | nil => exact ⟨[], by simp, by simp, by simp⟩
  | cons x l ih =>
    obtain ⟨t1, e1, p1, q1⟩ := hstep E x (by simp)
    obtain ⟨t2, e2, p2, q2⟩ := ih (fun E y hy => hstep E y (by simp [hy])) (E ++ t1)
    refine ⟨t1 ++ t2, ?_, ?_, ?_⟩
    · rw [List.foldl_cons, e1, e2, List.append_assoc]
    · intro e he
      rcases List.mem_append.1 he with h | h
      · exact ⟨x, by simp, p1 e h⟩
      · obtain ⟨y, hy, hp⟩ := p2 e h
        exact ⟨y, by simp [hy], hp⟩
    · intro y hy
      rw [← List.append_assoc]
      rcases List.mem_cons.1 hy with rfl | hy
      · exact hmono _ _ _ q1
      · exact q2 y hy

theorem createGraph_ok (wf : WellFormed m) (coh : CoherentLines m) {find : List GraphEdge → Uuid → Uuid → Option Nat}
    (hf : EdgeFinder find) : GraphOk m (createGraph m find) := by
  have inner : ∀ (line s : Uuid), ∀ E, ∃ t, (m.related (m.boundaries s) .line).foldl (addGraphEdge find line s) E = E ++ t ∧
      (∀ e ∈ t, ∃ bl ∈ m.related (m.boundaries s) .line, e = ⟨bl, line, s⟩) ∧
      ∀ bl ∈ m.related (m.boundaries s) .line, ∃ e ∈ E ++ t, e.surface = s ∧
        ((e.v0 = bl ∧ e.v1 = line) ∨ (e.v0 = line ∧ e.v1 = bl)) := by
    intro line s E
    refine fold_edges _ (fun bl e => e = ⟨bl, line, s⟩) (fun bl E => ∃ e ∈ E, e.surface = s ∧
        ((e.v0 = bl ∧ e.v1 = line) ∨ (e.v0 = line ∧ e.v1 = bl))) _ ?_ ?_ E
    · intro E bl _
      obtain ⟨t, h1, h2, h3⟩ := addGraphEdge_spec hf line s bl E
      refine ⟨t, h1, ?_, h3⟩
      intro e he
      rcases h2 with h | h
      · rw [h] at he; cases he
      · rw [h, List.mem_singleton] at he; exact he
    · rintro x E t ⟨e, he, h⟩
      exact ⟨e, by simp [he], h⟩
  have middle : ∀ (line : Uuid), ∀ E, ∃ t, (m.related (m.incidences line) .surface).foldl (fun edges incident_surface =>
      (m.related (m.boundaries incident_surface) .line).foldl
        (addGraphEdge find line incident_surface) edges) E = E ++ t ∧
      (∀ e ∈ t, ∃ s ∈ m.related (m.incidences line) .surface, ∃ bl ∈ m.related (m.boundaries s) .line, e = ⟨bl, line, s⟩) ∧
      ∀ s ∈ m.related (m.incidences line) .surface, ∀ bl ∈ m.related (m.boundaries s) .line, ∃ e ∈ E ++ t,
        e.surface = s ∧ ((e.v0 = bl ∧ e.v1 = line) ∨ (e.v0 = line ∧ e.v1 = bl)) := by
    intro line E
    refine fold_edges _ (fun s e => ∃ bl ∈ m.related (m.boundaries s) .line, e = ⟨bl, line, s⟩)
      (fun s E => ∀ bl ∈ m.related (m.boundaries s) .line, ∃ e ∈ E,
        e.surface = s ∧ ((e.v0 = bl ∧ e.v1 = line) ∨ (e.v0 = line ∧ e.v1 = bl))) _ ?_ ?_ E
    · intro E s _; exact inner line s E
    · intro s E t h bl hbl
      obtain ⟨e, he, h⟩ := h bl hbl
      exact ⟨e, by simp [he], h⟩
  obtain ⟨t, h1, h2, h3⟩ := fold_edges (fun edges line =>
    (m.related (m.incidences line.id) .surface).foldl (fun edges incident_surface =>
      (m.related (m.boundaries incident_surface) .line).foldl
        (addGraphEdge find line.id incident_surface) edges) edges)
    (fun (line : TopologyComponent) e => ∃ s ∈ m.related (m.incidences line.id) .surface,
      ∃ bl ∈ m.related (m.boundaries s) .line, e = ⟨bl, line.id, s⟩)
    (fun line E => ∀ s ∈ m.related (m.incidences line.id) .surface, ∀ bl ∈ m.related (m.boundaries s) .line, ∃ e ∈ E,
        e.surface = s ∧ ((e.v0 = bl ∧ e.v1 = line.id) ∨ (e.v0 = line.id ∧ e.v1 = bl)))
    (m.components .line) (fun E line _ => middle line.id E) (by
      intro line E t h s hs bl hbl
      obtain ⟨e, he, h⟩ := h s hs bl hbl
      exact ⟨e, by simp [he], h⟩) []
  have hE : createGraph m find = t := by
    have : createGraph m find = [] ++ t := h1
    simpa using this
  rw [List.nil_append] at h3
  rw [hE]
  constructor
  · intro e he
    obtain ⟨line, hl, s, hs, bl, hbl, rfl⟩ := h2 e he
    exact ⟨mem_related.1 hbl, (coh _ _).1 (mem_related.1 hs)⟩
  · intro line s hls
    obtain ⟨c, hc, hid⟩ := wf.boundaries s _ hls
    simp only [] at hid hc
    obtain ⟨e, he, hs, hv⟩ := h3 c hc s (mem_related.2 ((coh _ _).2 (hid ▸ hls))) line (mem_related.2 hls)
    refine ⟨e, he, hs, ?_⟩
    rcases hv with h | h
    · exact Or.inl h.1
    · exact Or.inr h.2

theorem mem_edgesAround {E : List GraphEdge} {l : Uuid} {e : GraphEdge} :
    e ∈ edgesAroundVertex E l ↔ e ∈ E ∧ (e.v0 = l ∨ e.v1 = l) := by
  unfold edgesAroundVertex
  simp [List.mem_filter]

/-- Invariant of the rounds. -/
structure PeelInv (m : TopologyModel) (E0 : List GraphEdge) (vertices : List Uuid) (E : List GraphEdge)
    (N : List Uuid) : Prop where
  edges : E = E0.filter fun e => !N.contains e.surface
  nodup : N.Nodup
  sound : ∀ s ∈ N, CannotBound m s
  vertices : ∀ e ∈ E, e.v0 ∈ vertices ∧ e.v1 ∈ vertices

/-- Invariant of the loop over the vertices of a round; `done` are the vertices already seen. -/
structure RoundInv (m : TopologyModel) (E : List GraphEdge) (N : List Uuid) (done : List Uuid)
    (state : List Uuid × List Bool) : Prop where
  prefix_ : ∀ s ∈ N, s ∈ state.1
  nodup : state.1.Nodup
  sound : ∀ s ∈ state.1, CannotBound m s
  marks : state.2 = E.map fun e => state.1.contains e.surface
  seen : ∀ l ∈ done, ∀ e ∈ edgesAroundVertex E l, e.surface ∈ state.1 ∨
    ∃ e' ∈ edgesAroundVertex E l, e'.surface ≠ e.surface

theorem zip_map_marks (E : List GraphEdge) (L : List Uuid) (s : Uuid) :
    ((E.zip (E.map fun e => L.contains e.surface)).map fun edge => if edge.1.surface == s then true else edge.2) =
      E.map fun e => (L ++ [s]).contains e.surface := by
  induction E with
  | nil => rfl
  | cons e E ih =>
    rw [List.map_cons, List.zip_cons_cons, List.map_cons, ih, List.map_cons]
    congr 1
    by_cases h : e.surface = s <;> simp [h]

theorem peelVertex_inv {E0 E : List GraphEdge} {vertices N : List Uuid} (g : GraphOk m E0)
    (h : PeelInv m E0 vertices E N) {done : List Uuid} {state : List Uuid × List Bool} (l : Uuid)
    (hr : RoundInv m E N done state) : RoundInv m E N (done ++ [l]) (peelVertex E state l) := by
  have hsub : ∀ e ∈ E, e ∈ E0 := by
    intro e he; rw [h.edges] at he; exact (List.mem_filter.1 he).1
  have keep : (∀ e ∈ edgesAroundVertex E l, e.surface ∈ state.1 ∨
      ∃ e' ∈ edgesAroundVertex E l, e'.surface ≠ e.surface) → RoundInv m E N (done ++ [l]) state := by
    intro hl
    refine ⟨hr.prefix_, hr.nodup, hr.sound, hr.marks, ?_⟩
    intro l' hl' e he
    rcases List.mem_append.1 hl' with hd | hd
    · exact hr.seen l' hd e he
    · rw [List.mem_singleton] at hd; subst hd; exact hl e he
  unfold peelVertex
  cases ha : edgesAroundVertex E l with
  | nil =>
    refine keep ?_
    rw [ha]; intro e he; cases he
  | cons first rest =>
    simp only []
    have hfirst : first ∈ edgesAroundVertex E l := by rw [ha]; simp
    rw [← ha]
    by_cases hother : loopAny (fun e => e.surface != first.surface) (edgesAroundVertex E l) = true
    · rw [if_pos hother]
      refine keep ?_
      intro e he
      obtain ⟨e', he', hne⟩ := (loopAny_iff _ _).1 hother
      by_cases hef : e.surface = first.surface
      · exact Or.inr ⟨e', he', by rw [hef]; simpa using hne⟩
      · exact Or.inr ⟨first, hfirst, fun h => hef h.symm⟩
    · rw [if_neg hother]
      have hall : ∀ e ∈ edgesAroundVertex E l, e.surface = first.surface := by
        intro e he
        by_contra hc
        exact hother ((loopAny_iff _ _).2 ⟨e, he, by simpa using hc⟩)
      by_cases hc : first.surface ∈ state.1
      · rw [if_pos (by simpa using hc)]
        refine keep ?_
        intro e he
        exact Or.inl (by rw [hall e he]; exact hc)
      · rw [if_neg (by simpa using hc)]
        refine ⟨fun s hs => by simp [hr.prefix_ s hs], ?_, ?_, ?_, ?_⟩
        · rw [List.nodup_append]
          refine ⟨hr.nodup, by simp, ?_⟩
          intro x hx y hy hxy
          rw [List.mem_singleton] at hy
          exact hc (hy ▸ hxy ▸ hx)
        · intro s hs
          rcases List.mem_append.1 hs with hs | hs
          · exact hr.sound s hs
          · rw [List.mem_singleton] at hs
            subst hs
            rintro ⟨G, hG, hGs⟩
            obtain ⟨hfE, hfl⟩ := mem_edgesAround.1 hfirst
            have hb : ⟨.line, l⟩ ∈ m.boundaries first.surface := by
              rcases hfl with h | h
              · exact h ▸ (g.sound first (hsub _ hfE)).1
              · exact h ▸ (g.sound first (hsub _ hfE)).2
            obtain ⟨s', hGs', hne, hb'⟩ := hG _ hGs l hb
            obtain ⟨e, he, hes, hel⟩ := g.complete l s' hb'
            have hsN : s' ∉ N := fun hN => h.sound s' hN ⟨G, hG, hGs'⟩
            have heE : e ∈ E := by
              rw [h.edges, List.mem_filter]
              exact ⟨he, by simpa [hes] using hsN⟩
            exact hne (hes ▸ hall e (mem_edgesAround.2 ⟨heE, hel⟩))
        · simp only []
          rw [hr.marks]
          exact zip_map_marks E state.1 first.surface
        · intro l' hl' e he
          rcases List.mem_append.1 hl' with hd | hd
          · rcases hr.seen l' hd e he with h | h
            · exact Or.inl (by simp [h])
            · exact Or.inr h
          · rw [List.mem_singleton] at hd
            subst hd
            exact Or.inl (by rw [hall e he]; simp)

theorem peelRound_inv {E0 E : List GraphEdge} {vertices N : List Uuid} (g : GraphOk m E0)
    (h : PeelInv m E0 vertices E N) : ∀ (l done : List Uuid) (state : List Uuid × List Bool),
    RoundInv m E N done state → RoundInv m E N (done ++ l) (l.foldl (peelVertex E) state)
  | [], done, state, hr => by simpa using hr
  | x :: l, done, state, hr => by
    have := peelRound_inv g h l (done ++ [x]) _ (peelVertex_inv g h x hr)
    rw [List.foldl_cons]
    simpa using this

theorem peelLoop_spec {E0 : List GraphEdge} (g : GraphOk m E0) : ∀ (fuel : Nat) (vertices : List Uuid) (E : List GraphEdge)
    (N : List Uuid), PeelInv m E0 vertices E N → E.length < fuel →
    ∃ result, peelLoop fuel vertices E N = .ok result ∧ result.Nodup ∧ ∀ s, s ∈ result ↔ CannotBound m s
  | 0, _, _, _, _, h => absurd h (Nat.not_lt_zero _)
  | fuel + 1, vertices, E, N, h, hfuel => by
    have hEN : ∀ e ∈ E, e.surface ∉ N := by
      intro e he
      rw [h.edges] at he
      simpa using (List.mem_filter.1 he).2
    have hsub : ∀ e ∈ E, e ∈ E0 := by
      intro e he; rw [h.edges] at he; exact (List.mem_filter.1 he).1
    have h0 : RoundInv m E N [] (N, List.replicate E.length false) := by
      refine ⟨fun s hs => hs, h.nodup, h.sound, ?_, by simp⟩
      simp only []
      symm
      rw [List.eq_replicate_iff]
      refine ⟨by simp, ?_⟩
      intro b hb
      obtain ⟨e, he, rfl⟩ := List.mem_map.1 hb
      simpa using hEN e he
    have hr := peelRound_inv g h vertices [] _ h0
    rw [List.nil_append] at hr
    rw [peelLoop]
    generalize vertices.foldl (peelVertex E) (N, List.replicate E.length false) = state at hr
    simp only []
    by_cases hd : true ∈ state.2
    · rw [if_neg (by simpa using hd)]
      have hEdges : ((E.zip state.2).filter fun edge => !edge.2).map Prod.fst =
          E0.filter fun e => !state.1.contains e.surface := by
        have h1 : ((E.zip state.2).filter fun edge => !edge.2).map Prod.fst =
            E.filter fun e => !state.1.contains e.surface := by
          rw [hr.marks]
          clear hfuel h0 hr hEN hsub hd h
          induction E with
          | nil => rfl
          | cons e E ih =>
            rw [List.map_cons, List.zip_cons_cons, List.filter_cons, List.filter_cons]
            cases hc : state.1.contains e.surface
            · simp only [hc, Bool.not_false, if_true, List.map_cons, ih]
            · simp only [hc, Bool.not_true, Bool.false_eq_true, if_false, ih]
        rw [h1, h.edges, List.filter_filter]
        apply List.filter_congr
        intro e _
        by_cases hN : e.surface ∈ N
        · simp [hN, hr.prefix_ _ hN]
        · simp [hN]
      rw [hEdges]
      refine peelLoop_spec g fuel _ _ _ ⟨rfl, hr.nodup, hr.sound, ?_⟩ ?_
      · intro e he
        have he0 := List.mem_filter.1 he
        have heE : e ∈ E := by
          rw [h.edges, List.mem_filter]
          refine ⟨he0.1, ?_⟩
          have : e.surface ∉ state.1 := by simpa using he0.2
          simpa using fun hN => this (hr.prefix_ _ hN)
        have hne : ∀ l, (e.v0 = l ∨ e.v1 = l) →
            (!(edgesAroundVertex (E0.filter fun e => !state.1.contains e.surface) l).isEmpty) = true := by
          intro l hl
          rw [Bool.not_eq_true', List.isEmpty_eq_false_iff]
          exact List.ne_nil_of_mem (mem_edgesAround.2 ⟨he, hl⟩)
        exact ⟨List.mem_filter.2 ⟨(h.vertices e heE).1, hne _ (Or.inl rfl)⟩,
          List.mem_filter.2 ⟨(h.vertices e heE).2, hne _ (Or.inr rfl)⟩⟩
      · have hlt : (E0.filter fun e => !state.1.contains e.surface).length < E.length := by
          have h2 : (E0.filter fun e => !state.1.contains e.surface) = E.filter fun e => !state.1.contains e.surface := by
            rw [h.edges, List.filter_filter]
            apply List.filter_congr
            intro e _
            by_cases hN : e.surface ∈ N
            · simp [hN, hr.prefix_ _ hN]
            · simp [hN]
          rw [h2]
          rw [hr.marks] at hd
          obtain ⟨e, he, hc⟩ := List.mem_map.1 hd
          rcases Nat.lt_or_ge (E.filter fun e => !state.1.contains e.surface).length E.length with h | h
          · exact h
          · have := (List.length_filter_eq_length_iff).1 (le_antisymm (List.length_filter_le _ _) h) e he
            rw [hc] at this
            cases this
        omega
    · rw [if_pos (by simpa using hd)]
      refine ⟨state.1, rfl, hr.nodup, fun s => ⟨hr.sound s, ?_⟩⟩
      intro hcb
      by_contra hs
      have hnot : ∀ e ∈ E, e.surface ∉ state.1 := by
        intro e he hc
        apply hd
        rw [hr.marks]
        exact List.mem_map.2 ⟨e, he, by simpa using hc⟩
      apply hcb
      refine ⟨fun s => s ∉ state.1, ?_, hs⟩
      intro s hs line hb
      obtain ⟨e, he, hes, hel⟩ := g.complete line s hb
      have heE : e ∈ E := by
        rw [h.edges, List.mem_filter]
        refine ⟨he, ?_⟩
        simpa [hes] using fun hN => hs (hr.prefix_ _ hN)
      have hl : line ∈ vertices := by
        rcases hel with h' | h'
        · exact h' ▸ (h.vertices e heE).1
        · exact h' ▸ (h.vertices e heE).2
      rcases hr.seen line hl e (mem_edgesAround.2 ⟨heE, hel⟩) with hin | ⟨e', he', hne⟩
      · exact absurd (hes ▸ hin) hs
      · obtain ⟨heE', hel'⟩ := mem_edgesAround.1 he'
        refine ⟨e'.surface, hnot e' heE', fun h => hne (h.trans hes.symm), ?_⟩
        rcases hel' with h' | h'
        · exact h' ▸ (g.sound e' (hsub _ heE')).1
        · exact h' ▸ (g.sound e' (hsub _ heE')).2

theorem peelLoop_more : ∀ (fuel : Nat) {fuel' : Nat} (vertices : List Uuid) (E : List GraphEdge) (N : List Uuid)
    {r : List Uuid}, fuel ≤ fuel' → peelLoop fuel vertices E N = .ok r → peelLoop fuel' vertices E N = .ok r
  | 0, _, _, _, _, _, _, h => by rw [peelLoop] at h; cases h
  | fuel + 1, 0, _, _, _, _, hle, _ => absurd hle (by omega)
  | fuel + 1, fuel' + 1, vertices, E, N, r, hle, h => by
    rw [peelLoop] at h ⊢
    simp only [] at h ⊢
    split_ifs at h ⊢ with h1
    · exact h
    · exact peelLoop_more fuel _ _ _ (by omega) h

theorem findNotBoundarySurfaces_spec (wf : WellFormed m) (coh : CoherentLines m)
    {find : List GraphEdge → Uuid → Uuid → Option Nat} (hf : EdgeFinder find) :
    ∃ result N, (∀ fuel ≥ N, findNotBoundarySurfaces m find fuel = .ok result) ∧ result.Nodup ∧
      ∀ s, s ∈ result ↔ CannotBound m s := by
  have g := createGraph_ok wf coh hf
  obtain ⟨result, he, hn, hs⟩ := peelLoop_spec g ((createGraph m find).length + 1)
    ((m.components .line).map TopologyComponent.id) (createGraph m find) []
    ⟨by simp, by simp, by simp, by
      have : ∀ s l, ⟨.line, l⟩ ∈ m.boundaries s → l ∈ (m.components .line).map TopologyComponent.id := by
        intro s l hl
        obtain ⟨c, hc, hid⟩ := wf.boundaries s _ hl
        exact List.mem_map.2 ⟨c, hc, hid⟩
      intro e he
      exact ⟨this _ _ (g.sound e he).1, this _ _ (g.sound e he).2⟩⟩ (by omega)
  exact ⟨result, _, fun fuel hle => peelLoop_more _ _ _ _ hle he, hn, hs⟩

/-! ### Dangling surfaces -/

theorem findDangling_spec (wf : WellFormed m) {inside : Uuid → Uuid → Except Failure Bool} (hr : RaysAnswer m inside)
    (N : List Uuid) (hc : ∀ s ∈ N, CannotBound m s) (hN : ∀ s ∈ N, Has m .surface s) :
    ∃ D, findDanglingSurfaces m inside N = .ok D ∧ D.Sublist N ∧ ∀ s, s ∈ D ↔ s ∈ N ∧ OutsideBlocks m inside s := by
  classical
  have key : ∀ (N : List Uuid), (∀ s ∈ N, CannotBound m s) → (∀ s ∈ N, Has m .surface s) → ∀ acc, N.foldlM (fun dangling_surfaces surface_id => do
      let surface ← m.component .surface surface_id
      if surface.nbElements == 0 then return dangling_surfaces
      let is_inside ← loopAnyM (fun block => inside surface_id block.id) (m.components .block)
      return if !is_inside then dangling_surfaces ++ [surface_id] else dangling_surfaces) acc =
      (.ok (acc ++ N.filter fun s => decide (OutsideBlocks m inside s)) : Except Failure _) := by
    intro N
    induction N with
    | nil => intro _ _ acc; simp [pure, Except.pure]
    | cons s N ih =>
      intro hcb hN acc
      obtain ⟨c, h1, h2, h3, _⟩ := component_ok (wf.ids .surface) (hN s (by simp))
      rw [List.foldlM_cons]
      have hone : (do
          let surface ← m.component .surface s
          if surface.nbElements == 0 then return acc
          let is_inside ← loopAnyM (fun block => inside s block.id) (m.components .block)
          return if !is_inside then acc ++ [s] else acc : Except Failure (List Uuid)) =
          .ok (if OutsideBlocks m inside s then acc ++ [s] else acc) := by
        have hpoly : (∃ c' ∈ m.components .surface, c'.id = s ∧ c'.nbElements ≠ 0) ↔ c.nbElements ≠ 0 := by
          constructor
          · rintro ⟨c', hc', hid, hne⟩
            rwa [List.inj_on_of_nodup_map (wf.ids .surface) hc' h2 (hid.trans h3.symm)] at hne
          · intro h; exact ⟨c, h2, h3, h⟩
        simp only [bind, Except.bind, h1]
        by_cases hz : c.nbElements = 0
        · rw [if_pos (by simp [hz]), if_neg (by unfold OutsideBlocks; rw [hpoly]; simp [hz])]; rfl
        · rw [if_neg (by simp [hz])]
          obtain ⟨b, hb, hbiff⟩ : ∃ b, loopAnyM (fun block => inside s block.id) (m.components .block) = .ok b ∧
              (b = false ↔ ∀ block ∈ m.components .block, inside s block.id = .ok false) := by
            refine loopAnyM_decides _ _ _ ?_
            intro x hx
            obtain ⟨y, hy⟩ := hr s (hcb s (by simp)) (hpoly.2 hz) x hx
            exact ⟨y, hy, by rw [hy]; exact ⟨fun h => by rw [h], fun h => by injection h⟩⟩
          have hout : OutsideBlocks m inside s ↔ b = false := by
            unfold OutsideBlocks
            rw [hpoly, ← hbiff]; simp [hz]
          simp only [hb]
          cases hl : b
          · have hyes : OutsideBlocks m inside s := hout.2 hl
            rw [if_pos hyes]; rfl
          · have hno : ¬ OutsideBlocks m inside s := by rw [hout, hl]; simp
            rw [if_neg hno]; rfl
      rw [hone]
      simp only [bind, Except.bind]
      have := ih (fun x hx => hcb x (by simp [hx])) (fun x hx => hN x (by simp [hx])) (if OutsideBlocks m inside s then acc ++ [s] else acc)
      simp only [bind, Except.bind] at this
      rw [this, List.filter_cons]
      by_cases ho : OutsideBlocks m inside s <;> simp [ho]
  refine ⟨_, by unfold findDanglingSurfaces; exact key N hc hN [], ?_, ?_⟩
  · rw [List.nil_append]; exact List.filter_sublist
  · intro s; simp [List.mem_filter]

end Inspector
