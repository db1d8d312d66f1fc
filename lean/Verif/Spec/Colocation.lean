import Mathlib.Data.List.Forall2
import Verif.Model.Colocation
/-
Specification side of C09-C14.
-/
namespace Inspector.Spec

/-- What the external colocation search guarantees for `n` points: one unique point index per
point, in range, every unique point being used; and `n` fits in an `index_t`. -/
def SearchOk {P : Type} (info : ColocatedInfo P) (n : Nat) : Prop :=
  info.colocated_mapping.length = n ∧ n < 2 ^ 32 ∧
  (∀ u ∈ info.colocated_mapping, u < info.unique_points.length) ∧
  (∀ u, u < info.unique_points.length → u ∈ info.colocated_mapping)

/-- Points `i` and `j` have the same unique point. -/
def Colocated {P : Type} (info : ColocatedInfo P) (i j : Index) : Prop :=
  ∃ u, info.colocated_mapping[i]? = some u ∧ info.colocated_mapping[j]? = some u

/-- `groups` are the classes with at least two elements of the relation `rel` on `0 .. n-1`, each
sorted. -/
def AreClasses (groups : List (List Index)) (n : Nat) (rel : Index → Index → Prop) : Prop :=
  (∀ g ∈ groups, 2 ≤ g.length ∧ g.Pairwise (· < ·) ∧ ∀ i ∈ g, i < n) ∧
  groups.Pairwise (fun g h => ∀ i ∈ g, i ∉ h) ∧
  ∀ i j, i < n → j < n → i ≠ j → ((∃ g ∈ groups, i ∈ g ∧ j ∈ g) ↔ rel i j)

/-- Two vertices of the group are linked to different unique vertices. -/
def SplitGroup (uv : Index → Index) (g : List Index) : Prop := ∃ i ∈ g, ∃ j ∈ g, uv i ≠ uv j

/-- `r` is made of vertices of `g`, contains the first one, and represents all its unique
vertices. -/
def Represents (uv : Index → Index) (g r : List Index) : Prop :=
  (∀ i ∈ r, i ∈ g) ∧ (∀ first, g.head? = some first → first ∈ r) ∧ ∀ i ∈ g, ∃ j ∈ r, uv j = uv i

/-- `reported` has one group per split group of `groups`, in the same order, which represents it. -/
def ReportsSplitGroups (uv : Index → Index) (groups reported : List (List Index)) : Prop :=
  ∃ split : List (List Index), split.Sublist groups ∧
    (∀ g ∈ groups, g ∈ split ↔ SplitGroup uv g) ∧
    List.Forall₂ (Represents uv) split reported

/-- Place `p` of a group whose places are linked to the unique vertices `u` is compared with the places after it: no
compared place before it is linked to the same unique vertex as place `p + 1`. -/
def Compared (u : Nat → Index) (p : Nat) : Prop :=
  ∀ i, i < p → u i = u (p + 1) → ¬ Compared u i
termination_by p

/-- Place `j` of a group is reported. -/
def Kept (u : Nat → Index) (j : Nat) : Prop := ∀ i < j, Compared u i → u i ≠ u j

/-- The specification of `inspect_meshes_point_colocations` on the active components `comps`: the
components with an entry are those having two colocated vertices linked to different unique
vertices; their entry reports their split groups. -/
def ColocationMapOk {P : Type} (search : List P → ColocatedInfo P) (comps : List (PointComponent P))
    (map : IssuesMap (List Index)) : Prop :=
  (map.entries.map Prod.fst).Sublist (comps.map PointComponent.id) ∧
  (∀ e ∈ map.entries, e.2.issues ≠ []) ∧
  ∀ c ∈ comps,
    ((∃ s, (c.id, s) ∈ map.entries) ↔
      ∃ i j, i < c.mesh.points.length ∧ j < c.mesh.points.length ∧
        Colocated (search c.mesh.points) i j ∧ c.uniqueVertex i ≠ c.uniqueVertex j) ∧
    ∀ s, (c.id, s) ∈ map.entries → ∃ groups,
      AreClasses groups c.mesh.points.length (Colocated (search c.mesh.points)) ∧
      ReportsSplitGroups c.uniqueVertex groups s.issues

/-- Position of a component mesh vertex according to the type of its component. -/
def position {P : Type} (m : UVModel P) (cmv : ComponentMeshVertex) : P :=
  match cmv.component_id.type with
  | .corner => m.cornerPoint cmv.component_id.id cmv.vertex
  | .line => m.linePoint cmv.component_id.id cmv.vertex
  | .surface => m.surfacePoint cmv.component_id.id cmv.vertex
  | .block => m.blockPoint cmv.component_id.id cmv.vertex
  | .other => m.cornerPoint cmv.component_id.id cmv.vertex

/-- The component mesh vertices of a unique vertex that belong to an active component. -/
def activeCmvs {P : Type} (m : UVModel P) (uv : Index) : List ComponentMeshVertex :=
  (m.componentMeshVertices uv).filter fun cmv => m.isActive cmv.component_id.id

/-- The unique vertices with an active component mesh vertex, in increasing order. -/
def activeUvs {P : Type} (m : UVModel P) : List Index :=
  (List.range m.nbUniqueVertices).filter fun uv => !(activeCmvs m uv).isEmpty

/-- The positions of the unique vertices with an active component mesh vertex: each one is the
position of its first active component mesh vertex. -/
def activePositions {P : Type} (m : UVModel P) : List P :=
  (List.range m.nbUniqueVertices).filterMap fun uv => (activeCmvs m uv).head?.map (position m)

/-- One of the active component mesh vertices is not at the position of the first one. -/
def DifferentPoints {P : Type} (inexactEqual : P → P → Bool) (m : UVModel P) (uv : Index) : Prop :=
  ∃ first rest, activeCmvs m uv = first :: rest ∧
    ∃ cmv ∈ activeCmvs m uv, inexactEqual (position m first) (position m cmv) = false

/-- All the links are to components of the kinds the model has: Corners, Lines, Surfaces, and
Blocks for a BRep. -/
def KnownTypes {P : Type} (brep : Bool) (m : UVModel P) : Prop :=
  ∀ uv, ∀ cmv ∈ m.componentMeshVertices uv,
    cmv.component_id.type ≠ .other ∧ (cmv.component_id.type = .block → brep = true)

end Inspector.Spec
