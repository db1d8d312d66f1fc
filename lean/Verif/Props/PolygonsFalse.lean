import Verif.Props.Polygons
import Verif.Props.Parts
import Verif.Props.Renumber
/-
C134 is not true of all BReps: the only polygon of a Surface which is looked for in the Blocks is its polygon number 0.
-/
namespace Inspector
open Spec

/-- A tetrahedron, and a square of two triangles which has no relation with it. -/
def quadApart : TopologyData := Parts.beside tetrahedronBRep (Parts.otherIds 100 quadBorder)

def quadApartFace : FaceData Nat :=
  { quadFace with
    id := 121
    points := [40, 50, 60, 70] }

/-- The triangle of the square which has the number 1 is in the tetrahedron, the other one is not. -/
def halfInside (s : Uuid) (i : Index) (b : Uuid) : Except Failure Bool := .ok (s == 121 && i == 1 && b == 31)

abbrev quadApartModel : ModelData Nat :=
  { exampleModel quadApart (10 * ·) .positive with
    surfaces := (exampleModel tetrahedronBRep (10 * ·) .positive).surfaces ++ [quadApartFace] }

/-- The triangles of the square exchange their numbers. -/
def exchangeInSquare (s : Uuid) : Equiv.Perm Nat := if s = 121 then Equiv.swap 0 1 else Equiv.refl _

theorem exchangeInSquare_numbers : ElementNumbersOf exchangeInSquare (fun _ => Equiv.refl _) quadApartModel := by
  have key : ∀ s n, (s = 121 → 2 ≤ n) → Renumbers (exchangeInSquare s) n := by
    intro s n hn i
    unfold exchangeInSquare
    split
    · have := hn ‹_›
      rw [Equiv.swap_apply_def]
      split <;> [skip; split] <;> omega
    · exact Iff.rfl
  have h1 : ∀ s ∈ quadApartModel.surfaces, s.id = 121 → 2 ≤ s.nbPolygons := by decide +kernel
  have h2 : ∀ s ∈ quadApartModel.blocks, s.id = 121 → 2 ≤ s.nbPolyhedra := by decide +kernel
  exact ⟨fun s hs => key _ _ (h1 s hs), fun _ _ _ => Iff.rfl, fun b hb => key _ _ (h2 b hb), fun _ _ _ => Iff.rfl⟩

set_option maxRecDepth 100000 in
set_option maxHeartbeats 4000000 in
theorem Polygons.quadApart_valid (n : Nat) :
    isBRepOfValid modelLibrary modelRuntime (n + 50) quadApartModel = .ok {} := by rfl

set_option maxRecDepth 100000 in
set_option maxHeartbeats 4000000 in
theorem Polygons.quadApart_invalid (n : Nat) : (isBRepOfValid modelLibrary modelRuntime (n + 50)
    (withElementsIn halfInside exchangeInSquare (fun _ => Equiv.refl _) quadApartModel)).toOption.map (·.isValid) =
      some false := by rfl

theorem quadApart_surfaces {s : FaceData Nat} (hs : s ∈ quadApartModel.surfaces) :
    s ∈ (exampleModel tetrahedronBRep (10 * ·) .positive).surfaces ∨ s = quadApartFace := by
  rcases List.mem_append.1 hs with h | h
  · exact .inl h
  · exact .inr (List.mem_singleton.1 h)

set_option maxRecDepth 20000 in
theorem quadApart_meshes : MeshesOk modelLibrary quadApartModel where
  ids := by decide +kernel
  nbComponents := by decide +kernel
  corners := by decide +kernel
  lines := by
    have h : ∀ l ∈ quadApartModel.lines, l.points.length < 2 ^ 32 ∧ l.nbEdges < 2 ^ 32 := by decide +kernel
    exact fun l hl => ⟨identity_search _ (h l hl).1, (h l hl).2⟩
  surfaces := by
    intro s hs
    rcases quadApart_surfaces hs with hs | rfl
    · exact (exampleModel_meshes tetrahedronBRep (10 * ·) .positive (by decide)).surfaces s hs
    · exact ⟨identity_search _ (by decide), by decide, by decide, by decide +kernel⟩
  walks := by
    intro s hs
    rcases quadApart_surfaces hs with hs | rfl
    · have h := (exampleModel_meshes tetrahedronBRep (10 * ·) .positive (by decide)).walks s hs
      exact ⟨h.vertices, h.walks, h.nbVertices, h.nbEdges, h.uses⟩
    · refine ⟨fun p k hp hk => ?_, fun v _ f hf => (by cases hf), by decide +kernel, by decide +kernel, fun e => ?_⟩
      · have hk : k < 3 := hk
        show (if p = 0 then [0, 1, 2].getD k 0 else [0, 2, 3].getD k 0) < 4
        rcases k with _ | _ | _ | k
        all_goals first | (split <;> decide) | omega
      · refine Nat.lt_of_le_of_lt (List.length_filter_le _ _) ?_
        decide +kernel
  blocks := by
    intro b hb
    have hb : b ∈ (exampleModel tetrahedronBRep (10 * ·) .positive).blocks := hb
    exact (exampleModel_meshes tetrahedronBRep (10 * ·) .positive (by decide)).blocks b hb
  uniqueVertices := by
    rw [← activePositions_length]
    exact identity_search _ (by decide +kernel)
  nbUniqueVertices := by decide +kernel
  nbLinks := by decide +kernel
  smallPolygons := by
    intro s hs p
    rcases quadApart_surfaces hs with hs | rfl
    · exact (exampleModel_meshes tetrahedronBRep (10 * ·) .positive (by decide)).smallPolygons s hs p
    · show 3 ≤ 256
      decide
  positions := (exampleModel_meshes foldedBorder (10 * ·) .positive (by decide)).positions
  blockWalks := by
    intro b hb
    have hb : b ∈ (exampleModel tetrahedronBRep (10 * ·) .positive).blocks := hb
    exact (exampleModel_meshes tetrahedronBRep (10 * ·) .positive (by decide)).blockWalks b hb

theorem quadApart_components : (quadApartModel.topology modelRuntime).components = quadApart.toModel.components := by
  funext kind
  cases kind <;> rfl

theorem quadApart_wf : WellFormed (quadApartModel.topology modelRuntime) := by
  have wf := quadApart.wf_of_check (by decide +kernel)
  have hc := quadApart_components
  refine ⟨by rw [hc]; exact wf.ids, ?_, ?_, ?_, ?_⟩ <;> unfold Has <;> rw [hc]
  · exact wf.vertices
  · exact wf.embeddings
  · exact wf.incidences
  · exact wf.boundaries

set_option maxRecDepth 20000 in
theorem quadApart_trees : ModelTreesOk (quadApartModel.intersections modelLibrary true) noCandidate :=
  quad_trees _ _ (fun _ _ => rfl) (fun _ _ _ => rfl) (fun _ _ _ => rfl) rfl (by decide +kernel)

set_option maxRecDepth 20000 in
theorem quadApart_ok : BRepOk modelLibrary modelRuntime quadApartModel noCandidate where
  meshesKnown := quadApart_meshes.toMeshesKnown
  blockWalks := quadApart_meshes.blockWalks
  types := exampleModel_types quadApart (10 * ·) .positive _ (by decide +kernel)
  trees := quadApart_trees
  nbModelEdges := by decide +kernel
  topology := quadApart_wf
  around := by
    have aw := quadApart.aw_of_check (by decide +kernel)
    have hc := quadApart_components
    refine ⟨fun m => List.reverse_perm m, ?_, aw.surfaceKeys, ?_, aw.blockKeys, ?_, by decide +kernel, by decide +kernel⟩ <;>
      unfold Has <;> rw [hc]
    · exact aw.surfaces
    · exact aw.blocks
    · exact aw.polygons
  coherent := quadApart.coherent_of_check (by decide +kernel)
  surfaceEmbeddings := fun id _ e he => absurd he List.not_mem_nil
  firstEdges := by decide +kernel
  counts := by
    have := counts_of_check quadApart (by decide +kernel)
    intro v hv b hb
    exact this v hv b hb
  graph := firstEdge_finder
  geometry := noGeometry_raises
  rays := example_rays _
  modelBoundaries := Or.inl rfl

set_option maxRecDepth 20000 in
/-- **C134** is not true of all BReps: beside a valid tetrahedron, a Surface of two triangles, one of which is in the
tetrahedron, has no relation with it.  The BRep is declared valid if the triangle which is outside has the number 0, and
invalid if the triangles exchange their numbers.  (brep_blocks_topology.cpp:262-268 looks for the barycentre of the polygon
number 0, and of no other, in the Blocks.) -/
theorem C134_brep_false : ∃ (m : ModelData Nat) (inside : Uuid → Index → Uuid → Except Failure Bool)
    (π ε : Uuid → Equiv.Perm Nat) (c c' : Candidates Nat), TurnsAgree m ∧ AdjacentsExist m ∧
    InsideOfShape (m.topology modelRuntime) m.blocksOracle.geometry ∧ ElementNumbersOf π ε m ∧
    PolygonsIn inside m ∧
    BRepOk modelLibrary modelRuntime m c ∧ BRepOk modelLibrary modelRuntime (withElementsIn inside π ε m) c' ∧
    ∀ fuel ≥ 50, ∃ v v', isBRepOfValid modelLibrary modelRuntime fuel m = .ok v ∧
      isBRepOfValid modelLibrary modelRuntime fuel (withElementsIn inside π ε m) = .ok v' ∧
      v.isValid = true ∧ v'.isValid = false := by
  refine ⟨quadApartModel, halfInside, exchangeInSquare, fun _ => Equiv.refl _, noCandidate, noCandidate, ?_, ?_,
    fun _ _ _ _ _ _ _ _ _ => rfl, exchangeInSquare_numbers, ?_, quadApart_ok,
    Polygons.brepOkIn exchangeInSquare_numbers quadApart_ok
      (quad_trees _ _ (fun _ _ => rfl) (fun _ _ _ => rfl) (fun _ _ _ => rfl) rfl (by decide +kernel))
      (fun s _ _ b _ => ⟨_, rfl⟩), ?_⟩
  · intro b hb _
    have hb : b ∈ (exampleModel tetrahedronBRep (10 * ·) .positive).blocks := hb
    obtain ⟨c, hc, rfl⟩ := List.mem_map.1 hb
    exact ⟨_, _, oneTetrahedron_turn _ rfl rfl⟩
  · intro s hs _ x q _ hq
    rcases quadApart_surfaces hs with hs | rfl
    · obtain ⟨c, hc, rfl⟩ := List.mem_map.1 hs
      cases hq
    · have hq : (if x = (0, 2) then some 1 else if x = (1, 0) then some 0 else none) = some q := hq
      show q < 2
      split at hq <;> [skip; split at hq] <;> cases hq <;> decide
  · intro s b
    show Except.ok false = Except.ok (s == 121 && false && b == 31)
    simp
  · intro fuel hf
    obtain ⟨n, rfl⟩ : ∃ n, fuel = n + 50 := ⟨fuel - 50, by omega⟩
    have hv := Polygons.quadApart_invalid n
    cases he : isBRepOfValid modelLibrary modelRuntime (n + 50)
        (withElementsIn halfInside exchangeInSquare (fun _ => Equiv.refl _) quadApartModel) with
    | error f => rw [he] at hv; cases hv
    | ok v' =>
      rw [he] at hv
      exact ⟨_, v', Polygons.quadApart_valid n, rfl, rfl, Option.some.inj hv⟩

end Inspector
