import Verif.Proofs.Moved
import Verif.Props.Plain
import Verif.Props.NoOverlap
/-
C128: the verdict on a model does not depend on the place where it is.
-/
namespace Inspector
open Spec

/-- **C128** (Sections): a Section and the same one with its points moved get the same verdict, in any executions and with any
search trees, if the predicates answer of the moved points what they answered of the points. -/
theorem C128_section {P Q : Type} (f : P → Q) (lib : ModelLibrary P) (lib' : ModelLibrary Q) (rt rt' : ModelRuntime)
    (hrt : ModelRuntimeOk rt) (hrt' : ModelRuntimeOk rt') (m : ModelData P) (m' : ModelData Q) (moved : PointsMoved f m m')
    (known : VerticesKnown m) (answers : AnswersFollow f (HasPoint m) lib lib') (c : Candidates P) (c' : Candidates Q)
    (h : SectionOk lib rt m c) (h' : SectionOk lib' rt' m' c') :
    ∃ v v', isSectionOfValid lib rt m = .ok v ∧ isSectionOfValid lib' rt' m' = .ok v' ∧ v.isValid = v'.isValid := by
  obtain ⟨v, h1, h2⟩ := C99_section lib rt hrt m c h
  obtain ⟨v', h1', h2'⟩ := C99_section lib' rt' hrt' m' c' h'
  refine ⟨v, v', h1, h1', ?_⟩
  rw [Bool.eq_iff_iff, h2, h2', Place.sectionDefect moved known answers]

/-- **C128** (BReps): the same for BReps, whether the wrong embeddings of their Lines can be described (see C54) or not. -/
theorem C128_brep {P Q : Type} (f : P → Q) (lib : ModelLibrary P) (lib' : ModelLibrary Q) (rt rt' : ModelRuntime)
    (hrt : ModelRuntimeOk rt) (hrt' : ModelRuntimeOk rt') (m : ModelData P) (m' : ModelData Q) (moved : PointsMoved f m m')
    (known : VerticesKnown m) (answers : AnswersFollow f (HasPoint m) lib lib') (c : Candidates P) (c' : Candidates Q)
    (h : BRepOk lib rt m c) (h' : BRepOk lib' rt' m' c') :
    ∃ v v' N, (∀ fuel ≥ N, isBRepOfValid lib rt fuel m = .ok v ∧ isBRepOfValid lib' rt' fuel m' = .ok v') ∧
      v.isValid = v'.isValid := by
  obtain ⟨v, N, h1, h2, h3, _⟩ := C99_brep_partial lib rt hrt m c h
  obtain ⟨v', N', h1', h2', h3', _⟩ := C99_brep_partial lib' rt' hrt' m' c' h'
  refine ⟨v, v', max N N', fun fuel hf => ⟨h1 fuel (by omega), h1' fuel (by omega)⟩, ?_⟩
  rw [Bool.eq_iff_iff]
  rw [Place.unreadable moved] at h2' h3'
  by_cases hr : PlainUnreadable m
  · rw [(h3 hr).2, (h3' hr).2, Place.brepDefectBeside moved known answers]
  · rw [h2 hr, h2' hr, Place.brepDefect moved known answers]

/-! ### examples -/

/-- A translation of the plane. -/
def shift (p : ℚ × ℚ) : ℚ × ℚ := (p.1 + 7, p.2 - 3)

theorem shift_injective : Function.Injective shift := by
  intro p q h
  unfold shift at h
  simp only [Prod.mk.injEq, add_left_inj, sub_left_inj] at h
  exact Prod.ext h.1 h.2

theorem shift_onSegment (a b x : ℚ × ℚ) : OnSegment (shift a, shift b) (shift x) ↔ OnSegment (a, b) x := by
  unfold OnSegment shift
  refine exists_congr fun t => and_congr_right fun _ => and_congr_right fun _ => ?_
  constructor <;> rintro ⟨h1, h2⟩ <;> constructor <;> linarith

theorem shift_onLine (a b c d : ℚ × ℚ) : OnLine (shift a, shift b) (shift c, shift d) ↔ OnLine (a, b) (c, d) := by
  unfold OnLine orientation shift
  ring_nf

theorem shift_inTriangle (a b c p : ℚ × ℚ) : InTriangle (shift a, shift b, shift c) (shift p) ↔ InTriangle (a, b, c) p := by
  unfold InTriangle shift
  refine exists_congr fun u => exists_congr fun v => exists_congr fun w => and_congr_right fun _ => and_congr_right fun _ =>
    and_congr_right fun _ => and_congr_right fun h => ?_
  have e1 : ∀ x y z : ℚ, u * (x + 7) + v * (y + 7) + w * (z + 7) = u * x + v * y + w * z + 7 := by
    intro x y z
    linear_combination 7 * h
  have e2 : ∀ x y z : ℚ, u * (x - 3) + v * (y - 3) + w * (z - 3) = u * x + v * y + w * z - 3 := by
    intro x y z
    linear_combination (-3) * h
  simp only [e1, e2, add_left_inj, sub_left_inj]

theorem shift_surjective (p : ℚ × ℚ) : ∃ q, shift q = p := ⟨(p.1 - 7, p.2 + 3), by unfold shift; simp⟩

open Classical in
theorem shift_segments (a b c d : ℚ × ℚ) :
    (exactGeometry (K := ℚ)).segmentSegment (shift a, shift b) (shift c, shift d) =
      (exactGeometry (K := ℚ)).segmentSegment (a, b) (c, d) := by
  show (if OnLine _ _ then _ else if h : ∃ x, OnSegment _ x ∧ OnSegment _ x then _ else _) =
    (if OnLine _ _ then _ else if h : ∃ x, OnSegment _ x ∧ OnSegment _ x then _ else _)
  by_cases hl : OnLine (a, b) (c, d)
  · rw [if_pos hl, if_pos ((shift_onLine _ _ _ _).2 hl)]
  · have hl' : ¬ OnLine (shift a, shift b) (shift c, shift d) := fun h => hl ((shift_onLine _ _ _ _).1 h)
    rw [if_neg hl, if_neg hl']
    by_cases hx : ∃ x, OnSegment (a, b) x ∧ OnSegment (c, d) x
    · have hx' : ∃ x, OnSegment (shift a, shift b) x ∧ OnSegment (shift c, shift d) x := by
        obtain ⟨x, x1, x2⟩ := hx
        exact ⟨shift x, (shift_onSegment _ _ _).2 x1, (shift_onSegment _ _ _).2 x2⟩
      rw [dif_pos hx, dif_pos hx']
      have e : hx'.choose = shift hx.choose :=
        Plane.common_unique _ _ hl' _ _ hx'.choose_spec.1 hx'.choose_spec.2 ((shift_onSegment _ _ _).2 hx.choose_spec.1)
          ((shift_onSegment _ _ _).2 hx.choose_spec.2)
      rw [e]
      unfold exactPosition
      simp only [shift_injective.eq_iff]
    · have hx' : ¬ ∃ x, OnSegment (shift a, shift b) x ∧ OnSegment (shift c, shift d) x := by
        rintro ⟨x, x1, x2⟩
        obtain ⟨y, rfl⟩ := shift_surjective x
        exact hx ⟨y, (shift_onSegment _ _ _).1 x1, (shift_onSegment _ _ _).1 x2⟩
      rw [dif_neg hx, dif_neg hx']

/-- exact predicates of the plane answer the same after a translation -/
theorem shift_answers (D : ℚ × ℚ → Prop) : AnswersFollow shift D planeLibrary planeLibrary where
  eps := rfl
  isOpposite := rfl
  cycle := rfl
  positionToIndex := rfl
  search := by
    intro points _ i j
    show Colocated ⟨List.range (points.map shift).length, _⟩ i j ↔ Colocated ⟨List.range points.length, _⟩ i j
    rw [List.length_map]
    rfl
  distance := by
    intro p q _ _
    show (if shift p = shift q then _ else _) = (if p = q then _ else _)
    simp only [shift_injective.eq_iff]
  inexactEqual := by
    intro p q _ _
    show decide (shift p = shift q) = decide (p = q)
    simp only [shift_injective.eq_iff]
  segmentSegment := fun a b c d _ _ _ _ => shift_segments a b c d
  pointTriangle := by
    classical
    intro a b c d _ _ _ _
    show (if InTriangle _ _ then _ else _) = (if InTriangle _ _ then _ else _)
    simp only [shift_inTriangle]
  segmentTriangle := fun _ _ _ _ _ _ _ _ _ _ => rfl

theorem planeModel_moved (f : Nat → ℚ × ℚ) : PointsMoved shift (planeModel f) (planeModel (shift ∘ f)) := by
  constructor <;> rfl

/-- The links of the example go to vertices which exist. -/
def linkCheck (d : TopologyData) : Bool :=
  d.vertices.all fun links => links.all fun cmv =>
    match cmv.component_id.type with
    | .corner => d.corners.any fun c => c.id == cmv.component_id.id && decide (cmv.vertex < c.nbVertices)
    | .line => d.lines.any fun c => c.id == cmv.component_id.id && decide (cmv.vertex < c.nbVertices)
    | .surface => d.surfaces.any fun c => c.id == cmv.component_id.id && decide (cmv.vertex < c.nbVertices)
    | .block => d.blocks.any fun c => c.id == cmv.component_id.id && decide (cmv.vertex < c.nbVertices)
    | .other => false

theorem exampleModel_known (d : TopologyData) (scale : Nat → Nat) (sign : Sign)
    (h1 : ∀ c ∈ d.lines, c.nbElements < c.nbVertices) (h2 : ∀ c ∈ d.surfaces, 0 < c.nbElements → 3 ≤ c.nbVertices)
    (h3 : linkCheck d = true) : VerticesKnown (exampleModel d scale sign) := by
  have hlen : ∀ kind c, (exampleModel.points d scale kind c).length = c.nbVertices := by
    intro kind c
    simp [exampleModel.points, exampleModel.vertices]
  constructor
  · intro l hl e he
    obtain ⟨c, hc, rfl⟩ := List.mem_map.1 hl
    have := h1 c hc
    have he : e < c.nbElements := he
    show e < (exampleModel.points d scale .line c).length ∧ e + 1 < (exampleModel.points d scale .line c).length
    rw [hlen]
    omega
  · intro s hs p k hp hk
    obtain ⟨c, hc, rfl⟩ := List.mem_map.1 hs
    have hp : p < c.nbElements := hp
    have := h2 c hc (by omega)
    have hk : k < 3 := hk
    show k < (exampleModel.points d scale .surface c).length
    rw [hlen]
    omega
  · intro uv huv cmv hcmv _
    have hcmv : cmv ∈ d.vertices.getD uv [] := hcmv
    rw [List.getD_eq_getElem?_getD] at hcmv
    have hin : ∃ links ∈ d.vertices, cmv ∈ links := by
      cases hv : d.vertices[uv]? with
      | none => rw [hv] at hcmv; exact absurd hcmv List.not_mem_nil
      | some links => rw [hv] at hcmv; exact ⟨links, List.mem_of_getElem? hv, hcmv⟩
    obtain ⟨links, hl, hc⟩ := hin
    have := List.all_eq_true.1 (List.all_eq_true.1 h3 links hl) cmv hc
    unfold PointsOf
    cases ht : cmv.component_id.type <;> rw [ht] at this <;>
      simp only [List.any_eq_true, Bool.and_eq_true, beq_iff_eq, decide_eq_true_eq, Bool.false_eq_true] at this
    all_goals
      obtain ⟨c, hc, hid, hv⟩ := this
      exact ⟨_, ⟨_, List.mem_map_of_mem hc, hid, rfl⟩, by show _ < (exampleModel.points d scale _ c).length; rw [hlen]; exact hv⟩

theorem mapPoints_moved {P Q : Type} (f : P → Q) (m : ModelData P) : PointsMoved f m (m.mapPoints f) := by
  constructor <;> rfl

theorem mapPoints_known {P Q : Type} (f : P → Q) (m : ModelData P) (h : VerticesKnown m) : VerticesKnown (m.mapPoints f) := by
  have mv := mapPoints_moved f m
  constructor
  · intro l hl e he
    obtain ⟨l', hl', rfl⟩ := List.mem_map.1 hl
    have := h.edges l' hl' e he
    simpa using this
  · intro s hs p k hp hk
    obtain ⟨s', hs', rfl⟩ := List.mem_map.1 hs
    have := h.polygons s' hs' p k hp hk
    simpa using this
  · intro uv huv cmv hc ha
    obtain ⟨points, hp, hv⟩ := h.links uv huv cmv hc ((Place.isActiveId mv _).1 ha)
    exact ⟨points.map f, (Place.pointsOf mv _ _).2 ⟨points, hp, rfl⟩, by simpa using hv⟩

theorem planeModel_known (f : Nat → ℚ × ℚ) : VerticesKnown (planeModel f) :=
  mapPoints_known f _ (exampleModel_known trianglesApart id .positive (by decide) (by decide) (by decide))

theorem shifted_apart : BordersApart (shift ∘ sidePoint) := by
  refine ⟨by norm_num [Flat, orientation, sidePoint, shift], by norm_num [Flat, orientation, sidePoint, shift], ?_⟩
  rintro x ⟨e, he, t, h0, h1, hx, _⟩ ⟨e', he', t', h0', h1', hx', _⟩
  simp only [sidePoint, shift, Function.comp, sides, List.mem_cons, List.not_mem_nil, or_false] at he he'
  rcases he with rfl | rfl | rfl <;> rcases he' with rfl | rfl | rfl <;> norm_num at hx hx' <;> linarith

/-- two triangles of the plane and the same ones after a translation get the same verdict, which is that the Section is valid -/
example : ∃ v v', isSectionOfValid planeLibrary modelRuntime (planeModel sidePoint) = .ok v ∧
    isSectionOfValid planeLibrary modelRuntime (planeModel (shift ∘ sidePoint)) = .ok v' ∧ v.isValid = true ∧
    v'.isValid = true := by
  obtain ⟨v, v', h1, h1', h2⟩ := C128_section shift planeLibrary planeLibrary modelRuntime modelRuntime modelRuntime_ok
    modelRuntime_ok (planeModel sidePoint) (planeModel (shift ∘ sidePoint)) (planeModel_moved _) (planeModel_known _)
    (shift_answers _) _ _ (planeModel_ok _ sidePoint_apart) (planeModel_ok _ shifted_apart)
  have he : isSectionOfValid planeLibrary modelRuntime (planeModel sidePoint) = .ok {} := by rfl
  have hv : v.isValid = true := by
    rw [he] at h1
    injection h1 with h1
    rw [← h1]; rfl
  exact ⟨v, v', h1, h1', hv, by rw [← h2]; exact hv⟩

theorem shiftedTetrahedron_ok (sign : Sign) :
    BRepOk modelLibrary modelRuntime (exampleModel tetrahedronBRep (10 * · + 7) sign) noCandidate where
  meshesKnown := MeshesOk.toMeshesKnown (exampleModel_meshes _ _ _ (by decide))
  blockWalks := MeshesOk.blockWalks (exampleModel_meshes _ _ _ (by decide))
  types := exampleModel_types _ _ _ _ (by decide)
  trees := exampleModel_trees _ _ _ _ (by cases sign <;> decide +kernel)
  nbModelEdges := by cases sign <;> decide +kernel
  topology := exampleModel_wf _ _ _ _ (by decide) (by decide) (by decide)
  around := by
    have aw := tetrahedronBRep.aw_of_check (by decide)
    rw [exampleModel_topology tetrahedronBRep _ sign modelRuntime (by decide) (by decide)]
    exact ⟨fun m => List.reverse_perm m, aw.surfaces, aw.surfaceKeys, aw.blocks, aw.blockKeys, aw.polygons,
      by cases sign <;> decide +kernel, by cases sign <;> decide +kernel⟩
  coherent := tetrahedronBRep.coherent_of_check (by decide)
  surfaceEmbeddings := fun id _ e he => absurd he List.not_mem_nil
  firstEdges := by cases sign <;> decide +kernel
  counts := by
    rw [exampleModel_topology tetrahedronBRep _ sign modelRuntime (by decide) (by decide)]
    exact counts_of_check tetrahedronBRep (by decide)
  graph := firstEdge_finder
  geometry := noGeometry_raises
  rays := example_rays _
  modelBoundaries := Or.inl rfl

theorem shiftedTetrahedron_moved (sign : Sign) : PointsMoved (· + 7) (exampleModel tetrahedronBRep (10 * ·) sign)
    (exampleModel tetrahedronBRep (10 * · + 7) sign) := by
  constructor <;> rfl

theorem shiftedTetrahedron_answers (D : Nat → Prop) : AnswersFollow (· + 7) D modelLibrary modelLibrary where
  eps := rfl
  isOpposite := rfl
  cycle := rfl
  positionToIndex := rfl
  search := by
    intro points _ i j
    show Colocated ⟨List.range (points.map _).length, _⟩ i j ↔ Colocated ⟨List.range points.length, _⟩ i j
    rw [List.length_map]
    rfl
  distance := by
    intro p q _ _
    show Dbl.num (((p + 7 : Nat) : Int) - (q + 7 : Nat)).natAbs = Dbl.num ((p : Int) - q).natAbs
    congr 2
    omega
  inexactEqual := by
    intro p q _ _
    show (p + 7 == q + 7) = (p == q)
    rw [Bool.eq_iff_iff, beq_iff_eq, beq_iff_eq]
    omega
  segmentSegment := fun _ _ _ _ _ _ _ _ => rfl
  pointTriangle := fun _ _ _ _ _ _ _ _ => rfl
  segmentTriangle := fun _ _ _ _ _ _ _ _ _ _ => rfl

/-- a tetrahedron and the same one moved get the same verdict, be its volume positive or not -/
example (sign : Sign) : ∃ v v' N, (∀ fuel ≥ N,
    isBRepOfValid modelLibrary modelRuntime fuel (exampleModel tetrahedronBRep (10 * ·) sign) = .ok v ∧
    isBRepOfValid modelLibrary modelRuntime fuel (exampleModel tetrahedronBRep (10 * · + 7) sign) = .ok v') ∧
    v.isValid = v'.isValid :=
  C128_brep (· + 7) modelLibrary modelLibrary modelRuntime modelRuntime modelRuntime_ok modelRuntime_ok _ _
    (shiftedTetrahedron_moved sign) (exampleModel_known _ _ _ (by decide) (by decide) (by decide))
    (shiftedTetrahedron_answers _) _ _ (tetrahedronBRep_ok sign) (shiftedTetrahedron_ok sign)

end Inspector
