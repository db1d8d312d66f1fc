import Verif.Spec.LineEdges
import Verif.Proofs.Vertices
/-
Proofs for C133: the defects of a model do not depend on the numbers and the directions of the edges of its Lines.
-/
namespace Inspector.LineEdges
open Inspector Spec Vertices

/-- The numbers of the vertices are kept. -/
abbrev same : ComponentID → Equiv.Perm Nat := fun _ => Equiv.refl _

theorem oracle_same (o : BlocksOracle) : oracleVertices same o = o := by
  have h : ∀ f : FusedSurface, fusedVertices same f = f := by
    intro f
    unfold fusedVertices
    have : (fun p : Uuid × Index => (p.1, (same ⟨.surface, p.1⟩).symm p.2)) = id := rfl
    rw [this, List.map_id]
  unfold oracleVertices
  simp only [h]
  rfl

section
variable {P : Type} {lib : ModelLibrary P} {τ : Uuid → Equiv.Perm Nat} {turn : Uuid → Index → Bool} {m : ModelData P}

theorem places (rt rt' : ModelRuntime) : Places same (m.topology rt) ((withLineEdges τ turn m).topology rt') where
  range _ _ _ _ := Iff.rfl
  components := by
    funext kind
    cases kind
    case line => simp [ModelData.topology, withLineEdges, lineEdgesOf]
    all_goals rfl
  nbUniqueVertices := rfl
  cmvs v := by
    have : vertexOf same = id := rfl
    rw [this, List.map_id]
    rfl
  uniqueVertex c := rfl
  isBoundary := rfl
  isInternal := rfl
  embeddings := rfl
  incidences := rfl
  boundaries := rfl
  isVertexOnBorder _ _ := rfl
  blockPolygons := rfl
  polygonVertices id p := by
    show _ = List.map _ _
    simp only [Equiv.coe_refl, List.map_id]
    rfl

theorem edgeWrong (rt rt' : ModelRuntime) (line : Uuid) (e : Index) :
    EdgeIsWrong ((withLineEdges τ turn m).topology rt') line (τ line e) ↔ EdgeIsWrong (m.topology rt) line e := by
  have s := places (τ := τ) (turn := turn) (m := m) rt rt'
  have h1 : ((withLineEdges τ turn m).topology rt').surfaceEdges line (τ line e) = (m.topology rt).surfaceEdges line e := by
    show m.surfaceEdges line ((τ line).symm (τ line e)) = _
    rw [Equiv.symm_apply_apply]; rfl
  have h2 : ((withLineEdges τ turn m).topology rt').blockEdges line (τ line e) = (m.topology rt).blockEdges line e := by
    show m.blockEdges line ((τ line).symm (τ line e)) = _
    rw [Equiv.symm_apply_apply]; rfl
  unfold EdgeIsWrong
  simp only [h1, h2, active s, s.isBoundary, s.isInternal, s.embeddings, s.incidences, s.components]

theorem ex_edge {v : Equiv.Perm Nat} {n : Nat} (hv : Renumbers v n) {q q' : Nat → Prop} (hq : ∀ i, q' (v i) ↔ q i) :
    (∃ i, i < n ∧ q' i) ↔ ∃ i, i < n ∧ q i := by
  constructor
  · rintro ⟨i, hi, h⟩
    obtain ⟨i, rfl⟩ := v.surjective i
    exact ⟨i, (hv i).1 hi, (hq i).1 h⟩
  · rintro ⟨i, hi, h⟩
    exact ⟨v i, (hv i).2 hi, (hq i).2 h⟩

theorem lineEdges (h : LineEdgeNumbersOf τ m) (rt rt' : ModelRuntime) :
    LineEdgeDefect ((withLineEdges τ turn m).topology rt') ↔ LineEdgeDefect (m.topology rt) := by
  have s := places (τ := τ) (turn := turn) (m := m) rt rt'
  unfold LineEdgeDefect
  rw [s.components]
  refine exists_congr fun c => and_congr_right fun hc => and_congr_right fun _ => ?_
  rw [all_associated s hc]
  refine and_congr Iff.rfl ?_
  obtain ⟨l, hl, rfl⟩ := List.mem_map.1 hc
  exact ex_edge (h l hl) fun i => edgeWrong rt rt' _ i

/-- The line `line` has an active Surface which embeds it and which it bounds. -/
def Contradictory (t : TopologyModel) (line : Uuid) : Prop :=
  ∃ s, ⟨.surface, s⟩ ∈ t.embeddings line ∧ Active t .surface s ∧ t.isBoundary line s = true

/-- If no edge of the Line is wrong, whether the first one contradicts the relations does not depend on the edge. -/
theorem firstEdge_iff {t : TopologyModel} (hk : ∀ line e, ((t.surfaceEdges line e).map Prod.fst).Nodup) {line : Uuid}
    (hb : ∀ s, t.isBoundary line s = true ↔ ⟨.surface, s⟩ ∈ t.incidences line)
    (hi : ∀ s, t.isInternal line s = true ↔ ⟨.surface, s⟩ ∈ t.embeddings line) (h0 : ¬ EdgeIsWrong t line 0) :
    FirstEdgeIsWrong t line ↔ Contradictory t line := by
  unfold EdgeIsWrong at h0
  rw [not_or, not_or] at h0
  obtain ⟨h1, h2, _⟩ := h0
  have hn : ∀ s n, (s, n) ∈ t.surfaceEdges line 0 → Active t .surface s →
      (t.isBoundary line s = true ∧ n = 1) ∨ (t.isBoundary line s = false ∧ t.isInternal line s = true ∧ n = 2) := by
    intro s n hs ha
    by_contra hc
    rw [not_or] at hc
    exact h1 ⟨s, n, hs, ha, hc.1, hc.2⟩
  have hf : ∀ s n, (s, n) ∈ t.surfaceEdges line 0 → (t.surfaceEdges line 0).find? s = some n := fun s n hs =>
    (HMap.mem_iff_find? _ (hk line 0) s n).1 hs
  have he : ∀ s, (⟨.surface, s⟩ ∈ t.embeddings line ∨ ⟨.surface, s⟩ ∈ t.incidences line) → Active t .surface s →
      ∃ n, (s, n) ∈ t.surfaceEdges line 0 := by
    intro s hs ha
    by_contra hc
    exact h2 ⟨s, hs, ha, fun n hn => hc ⟨n, hn⟩⟩
  unfold FirstEdgeIsWrong Contradictory
  constructor
  · rintro (⟨s, hs, ha, hx⟩ | ⟨s, hs, ha, hx⟩ | ⟨hx, hy, s, n, hs, ha⟩)
    · obtain ⟨n, hsn⟩ := he s (.inr hs) ha
      rcases hn s n hsn ha with ⟨_, rfl⟩ | ⟨h, _⟩
      · exact absurd (hf s 1 hsn) hx
      · rw [(hb s).2 hs] at h; exact absurd h (by decide)
    · refine ⟨s, hs, ha, ?_⟩
      obtain ⟨n, hsn⟩ := he s (.inl hs) ha
      rcases hn s n hsn ha with ⟨h, _⟩ | ⟨_, _, rfl⟩
      · exact h
      · exact absurd ⟨2, hf s 2 hsn, Nat.le_refl _⟩ hx
    · rcases hn s n hs ha with ⟨h, _⟩ | ⟨_, h, _⟩
      · rw [hb, hx] at h; exact absurd h List.not_mem_nil
      · exact absurd ((hi s).1 h) (hy s)
  · rintro ⟨s, hs, ha, hx⟩
    refine .inr (.inl ⟨s, hs, ha, ?_⟩)
    obtain ⟨n, hsn⟩ := he s (.inl hs) ha
    rcases hn s n hsn ha with ⟨_, rfl⟩ | ⟨h, _⟩
    · rintro ⟨n, h1, h2⟩
      rw [hf s 1 hsn] at h1
      injection h1 with h1
      omega
    · rw [hx] at h; exact absurd h (by decide)

theorem lineWrong (hr : RelationsAgree m) (rt rt' : ModelRuntime) (h : LineEdgeNumbersOf τ m)
    (hk : ∀ line e, ((m.surfaceEdges line e).map Prod.fst).Nodup) (hids : (m.lines.map LineData.id).Nodup)
    (hu : ¬ HasUnlinkedVertex (m.topology rt) sectionKinds) (hd : ¬ LineEdgeDefect (m.topology rt)) (v : Index) :
    BRepLineWrong ((withLineEdges τ turn m).topology rt') v ↔ BRepLineWrong (m.topology rt) v := by
  have s := places (τ := τ) (turn := turn) (m := m) rt rt'
  have hd' : ¬ LineEdgeDefect ((withLineEdges τ turn m).topology rt') := fun x => hd ((lineEdges h rt rt').1 x)
  have hu' : ¬ HasUnlinkedVertex ((withLineEdges τ turn m).topology rt') sectionKinds := fun x => hu ((unlinked s _).1 x)
  unfold BRepLineWrong
  simp only [activeAt s, s.components]
  refine exists_congr fun line => and_congr_right fun ha => and_congr_right fun hc => ?_
  obtain ⟨c, hc, rfl, hne⟩ := hc
  obtain ⟨l, hl, rfl⟩ := List.mem_map.1 hc
  have hact : l.active = true := by
    obtain ⟨_, c', hc', hid, ha'⟩ := ha
    obtain ⟨l', hl', rfl⟩ := List.mem_map.1 hc'
    obtain rfl := List.inj_on_of_nodup_map hids hl' hl hid
    exact ha'
  have key : ∀ t, t.components = (m.topology rt).components → ¬ HasUnlinkedVertex t sectionKinds →
      ¬ LineEdgeDefect t → ¬ EdgeIsWrong t l.id 0 := by
    intro t hcomp h1 h2 h3
    refine h2 ⟨_, by rw [hcomp]; exact hc, hact, fun v hv => h1 ⟨.line, by decide, _, by rw [hcomp]; exact hc, hact, v, hv⟩,
      0, Nat.pos_of_ne_zero hne, h3⟩
  rw [firstEdge_iff (t := m.topology rt) hk (hr.boundary l hl) (hr.internal l hl) (key _ rfl hu hd),
    firstEdge_iff (t := (withLineEdges τ turn m).topology rt') (fun line e => hk line _) (hr.boundary l hl)
      (hr.internal l hl) (key _ s.components hu' hd')]
  unfold Contradictory
  simp only [active s]
  exact Iff.rfl

theorem isActiveId (id : Uuid) : IsActiveId (withLineEdges τ turn m) id ↔ IsActiveId m id := by
  simp [IsActiveId, withLineEdges, lineEdgesOf]

theorem pointsOf (c : ComponentID) (points : List P) : PointsOf (withLineEdges τ turn m) c points ↔ PointsOf m c points := by
  unfold PointsOf
  cases c.type <;> simp [withLineEdges, lineEdgesOf]

theorem isAt (cmv : ComponentMeshVertex) (p : P) : IsAt lib (withLineEdges τ turn m) cmv p ↔ IsAt lib m cmv p := by
  unfold IsAt
  simp only [pointsOf]

theorem firstActive (uv : Index) (first : ComponentMeshVertex) :
    FirstActive (withLineEdges τ turn m) uv first ↔ FirstActive m uv first := by
  unfold FirstActive
  simp only [isActiveId]
  exact Iff.rfl

theorem differentPoints (uv : Index) : PlainDifferentPoints lib (withLineEdges τ turn m) uv ↔ PlainDifferentPoints lib m uv := by
  unfold PlainDifferentPoints
  simp only [firstActive, isAt, isActiveId]
  exact Iff.rfl

theorem colocatedUvs : PlainColocatedUniqueVertices lib (withLineEdges τ turn m) ↔ PlainColocatedUniqueVertices lib m := by
  unfold PlainColocatedUniqueVertices ActivePoints
  simp only [firstActive, isAt, isActiveId]
  exact Iff.rfl

theorem ex_line (q : LineData P → Prop) :
    (∃ l ∈ (withLineEdges τ turn m).lines, q l) ↔ ∃ l ∈ m.lines, q (lineEdgesOf (τ l.id) (turn l.id) l) := by
  simp [withLineEdges]

theorem edgeAtMost (hs : SegmentsUndirected lib) (points : List P) (b : Bool) (e : Index × Index) :
    EdgeAtMostEps lib.toLibrary points (turnedEdge b e) ↔ EdgeAtMostEps lib.toLibrary points e := by
  cases b
  · exact Iff.rfl
  · constructor
    · rintro ⟨p, q, h1, h2, h3⟩
      exact ⟨q, p, h2, h1, by rw [hs.distance]; exact h3⟩
    · rintro ⟨p, q, h1, h2, h3⟩
      exact ⟨q, p, h2, h1, by rw [hs.distance]; exact h3⟩

theorem lineDefect (hs : SegmentsUndirected lib) (h : LineEdgeNumbersOf τ m) {l : LineData P} (hl : l ∈ m.lines) :
    PlainLineDefect lib (withLineEdges τ turn m) (lineEdgesOf (τ l.id) (turn l.id) l) ↔ PlainLineDefect lib m l := by
  unfold PlainLineDefect
  refine or_congr Iff.rfl ?_
  refine ex_edge (h l hl) fun i => ?_
  show EdgeAtMostEps _ _ (turnedEdge (turn l.id ((τ l.id).symm (τ l.id i))) (l.edgeVertices ((τ l.id).symm (τ l.id i)))) ↔ _
  rw [Equiv.symm_apply_apply, edgeAtMost hs]
  rfl

theorem borderNotOnLine (s : FaceData P) (x : PolygonEdge) :
    BorderNotOnLine (withLineEdges τ turn m) s x ↔ BorderNotOnLine m s x := by
  unfold BorderNotOnLine
  simp [withLineEdges]

theorem surfaceDefect (s : FaceData P) : PlainSurfaceDefect lib (withLineEdges τ turn m) s ↔ PlainSurfaceDefect lib m s := by
  unfold PlainSurfaceDefect
  simp only [borderNotOnLine]
  exact Iff.rfl

theorem floatingEdge (h : LineEdgeNumbersOf τ m) {l : LineData P} (hl : l ∈ m.lines) :
    FloatingEdge (withLineEdges τ turn m) (lineEdgesOf (τ l.id) (turn l.id) l) ↔ FloatingEdge m l := by
  unfold FloatingEdge
  refine and_congr Iff.rfl (and_congr_right fun hn => and_congr Iff.rfl ?_)
  have hn : l.nbEdges = 1 := hn
  have h0 : (τ l.id).symm 0 = 0 := by
    have := (h l hl ((τ l.id).symm 0)).1 (by rw [Equiv.apply_symm_apply, hn]; decide)
    omega
  show AloneAtUniqueVertex m .line l.id (turnedEdge (turn l.id ((τ l.id).symm 0)) (l.edgeVertices ((τ l.id).symm 0))).1 ∧
    AloneAtUniqueVertex m .line l.id (turnedEdge (turn l.id ((τ l.id).symm 0)) (l.edgeVertices ((τ l.id).symm 0))).2 ↔ _
  rw [h0]
  cases turn l.id 0
  · exact Iff.rfl
  · exact and_comm

theorem givenSurface (s : FaceData P) (r : ModelSurface P) :
    GivenSurface lib (withLineEdges τ turn m) s r ↔ GivenSurface lib m s r := by
  constructor
  · rintro ⟨⟩
    constructor <;> assumption
  · rintro ⟨⟩
    constructor <;> assumption

theorem lineMeets (hs : SegmentsUndirected lib) (h : LineEdgeNumbersOf τ m) :
    PlainLineMeetsSurface lib (withLineEdges τ turn m) ↔ PlainLineMeetsSurface lib m := by
  have key : ∀ (l : LineData P) (i : Index), (lineEdgesOf (τ l.id) (turn l.id) l).edgeVertices (τ l.id i) =
      turnedEdge (turn l.id i) (l.edgeVertices i) := by
    intro l i
    show turnedEdge (turn l.id ((τ l.id).symm (τ l.id i))) (l.edgeVertices ((τ l.id).symm (τ l.id i))) = _
    rw [Equiv.symm_apply_apply]
  constructor
  · rintro ⟨s, l, r, p, e, a, b, h1, h2, h3, h4, h5, g, h6, h7, h8, h9, t, ht, x, hx, hm⟩
    obtain ⟨l, hl, rfl⟩ := List.mem_map.1 h3
    obtain ⟨e, rfl⟩ := (τ l.id).surjective e
    rw [key] at h8 h9
    have he := (h l hl e).1 h7
    have g := (givenSurface s r).1 g
    cases ht' : turn l.id e with
    | false =>
      rw [ht'] at h8 h9
      exact ⟨s, l, r, p, e, a, b, h1, h2, hl, h4, h5, g, h6, he, h8, h9, t, ht, x, hx, hm⟩
    | true =>
      rw [ht'] at h8 h9
      exact ⟨s, l, r, p, e, b, a, h1, h2, hl, h4, h5, g, h6, he, h9, h8, t, ht, x, hx, (hs.triangle a b _ x hx).1 hm⟩
  · rintro ⟨s, l, r, p, e, a, b, h1, h2, hl, h4, h5, g, h6, h7, h8, h9, t, ht, x, hx, hm⟩
    have he := (h l hl e).2 h7
    have g := (givenSurface (τ := τ) (turn := turn) s r).2 g
    have hl' : lineEdgesOf (τ l.id) (turn l.id) l ∈ (withLineEdges τ turn m).lines := List.mem_map_of_mem hl
    cases ht' : turn l.id e with
    | false =>
      exact ⟨s, _, r, p, τ l.id e, a, b, h1, h2, hl', h4, h5, g, h6, he, by rw [key, ht']; exact h8,
        by rw [key, ht']; exact h9, t, ht, x, hx, hm⟩
    | true =>
      exact ⟨s, _, r, p, τ l.id e, b, a, h1, h2, hl', h4, h5, g, h6, he, by rw [key, ht']; exact h9,
        by rw [key, ht']; exact h8, t, ht, x, hx, (hs.triangle a b _ x hx).1 hm⟩

theorem polygonsMeet (Meet : ModelSurface P → ModelSurface P → List Index → List Index → Prop) :
    PlainPolygonsMeet lib (withLineEdges τ turn m) Meet ↔ PlainPolygonsMeet lib m Meet := by
  unfold PlainPolygonsMeet
  simp only [givenSurface]
  exact Iff.rfl

theorem meshDefect (hs : SegmentsUndirected lib) (h : LineEdgeNumbersOf τ m) :
    PlainBRepMeshDefect lib (withLineEdges τ turn m) ↔ PlainBRepMeshDefect lib m := by
  unfold PlainBRepMeshDefect
  simp only [ex_line, colocatedUvs, differentPoints, surfaceDefect, polygonsMeet]
  refine or_congr Iff.rfl (or_congr Iff.rfl (or_congr ?_ (or_congr Iff.rfl (or_congr Iff.rfl (or_congr Iff.rfl
    (or_congr ?_ Iff.rfl))))))
  · exact exists_congr fun l => and_congr_right fun hl => and_congr Iff.rfl (lineDefect hs h hl)
  · exact exists_congr fun l => and_congr_right fun hl => floatingEdge h hl

theorem nonEmptyLines : (∀ l ∈ (withLineEdges τ turn m).lines, l.active = true → l.nbEdges ≠ 0) ↔
    ∀ l ∈ m.lines, l.active = true → l.nbEdges ≠ 0 := by
  simp [withLineEdges, lineEdgesOf]

end
end Inspector.LineEdges
