import Verif.Props.Degeneration
import Mathlib.Tactic.IntervalCases
/-!
# C121: a program that manages the edges of its meshes itself

C22 and C23 say that inspectors leave the edges of the meshes as they were before.  Here the program may also enable and
disable edges between the calls to the inspectors.
-/
namespace Inspector

/-- An action of a program: a call to a degeneration inspector, or `enable_edges()` / `disable_edges()` of a mesh (both
external, OpenGeode; see internal/degeneration_impl.cpp:51 and 116 for the same calls made by the inspectors). -/
inductive EdgesAction where
  | call (c : DegenerationCall)
  | enable (key : MeshKey)
  | disable (key : MeshKey)

/-- Effect of one action (internal/degeneration_impl.cpp:40-119 for the calls). -/
def EdgesWorld.act (w : EdgesWorld) : EdgesAction → EdgesWorld
  | .call c => w.call c
  | .enable key => w.enable key
  | .disable key => w.disable key

/-- Effect of a whole program (internal/degeneration_impl.cpp:40-119 for the calls). -/
def EdgesWorld.acts (w : EdgesWorld) (actions : List EdgesAction) : EdgesWorld :=
  actions.foldl EdgesWorld.act w

namespace Spec

/-- What the program itself asked last for the edges of a mesh: `start` if it asked nothing. -/
def Asked (start : Bool) (key : MeshKey) : List EdgesAction → Bool
  | [] => start
  | .enable k :: rest => Asked (if k = key then true else start) key rest
  | .disable k :: rest => Asked (if k = key then false else start) key rest
  | .call _ :: rest => Asked start key rest

/-- The tasks of a query on a model are those of its active Surfaces, in any order. -/
def ActionSchedulesOk (actions : List EdgesAction) : Prop :=
  ∀ h read active schedule, .call (.querySurfaces h read active schedule) ∈ actions → schedule.Perm active

/-- The edges of `key` have been enabled by an inspector which is still alive. -/
def InUse (w : EdgesWorld) (key : MeshKey) : Prop :=
  ∃ h, w.alive h = some (.mesh key true) ∨
    ∃ surfaces blocks, w.alive h = some (.model surfaces blocks) ∧ (key ∈ surfaces ∨ key ∈ blocks)

/-- The program does not touch the edges of a mesh while an inspector which has enabled them is alive. -/
def WaitsForInspectors (w : EdgesWorld) (actions : List EdgesAction) : Prop :=
  ∀ before key after,
    (actions = before ++ .enable key :: after ∨ actions = before ++ .disable key :: after) → ¬ InUse (w.acts before) key

end Spec
open Spec

namespace EdgesUsed

theorem inv_acts (actions : List EdgesAction) : ∀ (w : EdgesWorld) (e0 : MeshKey → Bool),
    ActionSchedulesOk actions → WaitsForInspectors w actions → EdgesInv e0 w →
    EdgesInv (fun k => Asked (e0 k) k actions) (w.acts actions) ∧
      ∃ n, (w.acts actions).seen = w.seen ++ List.replicate n true := by
  induction actions with
  | nil => exact fun w e0 _ _ hi => ⟨hi, 0, by simp [EdgesWorld.acts]⟩
  | cons a rest ih =>
    intro w e0 hs hw hi
    have hs' : ActionSchedulesOk rest := fun h read ac s hm => hs h read ac s (List.mem_cons_of_mem _ hm)
    have hw' : WaitsForInspectors (w.act a) rest := by
      intro before key after h
      refine hw (a :: before) key after ?_
      rcases h with h | h
      · exact Or.inl (by rw [h]; rfl)
      · exact Or.inr (by rw [h]; rfl)
    cases a with
    | call c =>
      obtain ⟨h1, n, h2⟩ := edgesInv_call e0 w c
        (fun h read ac s hc k hk => (hs h read ac s (by rw [hc]; exact List.mem_cons_self)).mem_iff.1 hk) hi
      obtain ⟨h3, m, h4⟩ := ih (w.call c) e0 hs' hw' h1
      refine ⟨h3, n + m, ?_⟩
      show ((w.call c).acts rest).seen = _
      rw [h4, h2, List.append_assoc, List.replicate_append_replicate]
    | enable key =>
      have hu : ¬ Claimed w key := hw [] key rest (Or.inl rfl)
      have hi' : EdgesInv (fun k => if key = k then true else e0 k) (w.enable key) := by
        refine ⟨fun k hk => ?_, fun k hk he => ?_⟩ <;> simp only [] at hk
        · by_cases h : key = k
          · subst h
            exact ⟨by simp, hu⟩
          · rw [if_neg h] at hk
            obtain ⟨h1, h2⟩ := hi.1 k hk
            refine ⟨?_, h2⟩
            rw [enable_enabled, if_neg (fun h' => h h'.symm)]
            exact h1
        · by_cases h : key = k
          · rw [if_pos h] at hk
            exact absurd hk (by decide)
          · rw [if_neg h] at hk
            rw [enable_enabled, if_neg (fun h' => h h'.symm)] at he
            exact hi.2 k hk he
      obtain ⟨h3, m, h4⟩ := ih (w.enable key) _ hs' hw' hi'
      exact ⟨h3, m, h4⟩
    | disable key =>
      have hu : ¬ Claimed w key := hw [] key rest (Or.inr rfl)
      have hi' : EdgesInv (fun k => if key = k then false else e0 k) (w.disable key) := by
        refine ⟨fun k hk => ?_, fun k hk he => ?_⟩ <;> simp only [] at hk
        · by_cases h : key = k
          · rw [if_pos h] at hk
            exact absurd hk (by decide)
          · rw [if_neg h] at hk
            obtain ⟨h1, h2⟩ := hi.1 k hk
            refine ⟨?_, h2⟩
            rw [disable_enabled, if_neg (fun h' => h h'.symm)]
            exact h1
        · by_cases h : key = k
          · subst h
            simp at he
          · rw [if_neg h] at hk
            rw [disable_enabled, if_neg (fun h' => h h'.symm)] at he
            exact hi.2 k hk he
      obtain ⟨h3, m, h4⟩ := ih (w.disable key) _ hs' hw' hi'
      exact ⟨h3, m, h4⟩

end EdgesUsed

/-- **C121 (partial).** For every program which touches the edges of a mesh only while no living inspector has enabled them:
once every inspector is destroyed, every mesh has its edges enabled exactly if the program asked so last (or, if it asked
nothing, if it was so at the start). -/
theorem C121_edges_as_asked_partial (w : EdgesWorld) (actions : List EdgesAction) (hs : ActionSchedulesOk actions)
    (hbefore : ∀ h, w.alive h = none) (hafter : ∀ h, (w.acts actions).alive h = none)
    (hw : WaitsForInspectors w actions) (key : MeshKey) :
    (w.acts actions).enabled key = Asked (w.enabled key) key actions :=
  edgesInv_end _ _ (EdgesUsed.inv_acts actions w w.enabled hs hw (edgesInv_init w hbefore)).1 hafter key

/-- **C121 (partial).** For the same programs, at any moment, a mesh for which the program asked last to enable the edges has
them, even while inspectors are alive or being destroyed. -/
theorem C121_never_taken_away_partial (w : EdgesWorld) (actions : List EdgesAction) (hs : ActionSchedulesOk actions)
    (hbefore : ∀ h, w.alive h = none) (hw : WaitsForInspectors w actions) (key : MeshKey)
    (ha : Asked (w.enabled key) key actions = true) : (w.acts actions).enabled key = true :=
  ((EdgesUsed.inv_acts actions w w.enabled hs hw (edgesInv_init w hbefore)).1.1 key ha).1

/-- **C121 is false**: an inspector on a mesh without edges is queried, then the program enables the edges of the mesh (they
already are: nothing happens), then the inspector is destroyed: the edges the program has enabled are gone. -/
theorem C121_false : ∃ (w : EdgesWorld) (actions : List EdgesAction),
    ActionSchedulesOk actions ∧ (∀ h, w.alive h = none) ∧ (∀ h, (w.acts actions).alive h = none) ∧
    Asked (w.enabled 0) 0 actions = true ∧ (w.acts actions).enabled 0 = false := by
  refine ⟨{ enabled := fun _ => false, alive := fun _ => none },
    [.call (.createOnMesh 0 0), .call (.query 0), .enable 0, .call (.destroy 0)], ?_, fun _ => rfl, ?_, by decide, by decide⟩
  · intro h read active schedule hm
    simp at hm
  · intro h
    match h with
    | 0 => decide
    | n + 1 => rfl

/-- a program: the edges of mesh 1 are enabled and disabled by the program around the inspections of meshes 0 and 1 -/
def exampleActions : List EdgesAction :=
  [.call (.createOnMesh 0 0), .enable 1, .call (.query 0), .call (.createOnMesh 1 1), .call (.query 1), .disable 1,
   .call (.query 1), .call (.destroy 1), .enable 1, .call (.destroy 0), .enable 2]

/-- who is alive and has enabled edges at a step of the program -/
theorem exampleActions_waits : WaitsForInspectors exampleWorld exampleActions := by
  have hcut : ∀ (l : List EdgesAction) (w : EdgesWorld),
      (∀ i (hi : i < l.length) key, (l[i] = .enable key ∨ l[i] = .disable key) → ¬ InUse (w.acts (l.take i)) key) →
      WaitsForInspectors w l := by
    intro l w h before key after he
    have hlen : before.length < l.length := by rcases he with he | he <;> simp [he]
    have := h before.length hlen key (by rcases he with he | he <;> simp [he])
    rcases he with he | he <;> simpa [he] using this
  refine hcut _ _ ?_
  have hkey : ∀ h n, (exampleWorld.acts (exampleActions.take n)).alive (h + 2) = none := by
    intro h n
    match n with
    | 0 | 1 | 2 | 3 | 4 | 5 | 6 | 7 | 8 | 9 | 10 => rfl
    | n + 11 =>
      rw [List.take_of_length_le (by show 11 ≤ n + 11; omega)]
      rfl
  intro i hi key ha
  rintro ⟨h, hh⟩
  match h with
  | h + 2 =>
    rw [hkey h i] at hh
    rcases hh with hh | ⟨_, _, hh, _⟩ <;> cases hh
  | 0 | 1 =>
    have hi : i < 11 := hi
    interval_cases i <;>
      first
        | (rcases ha with ha | ha <;> cases ha; rcases hh with hh | ⟨_, _, hh, _⟩ <;> cases hh)
        | (rcases ha with ha | ha <;> cases ha)

example : ActionSchedulesOk exampleActions ∧ (∀ h, exampleWorld.alive h = none) ∧
    WaitsForInspectors exampleWorld exampleActions ∧ (∀ h, (exampleWorld.acts exampleActions).alive h = none) ∧
    Asked (exampleWorld.enabled 1) 1 exampleActions = true ∧ Asked (exampleWorld.enabled 3) 3 exampleActions = false := by
  refine ⟨?_, fun _ => rfl, exampleActions_waits, ?_, by decide, by decide⟩
  · intro h read active schedule hm
    simp [exampleActions] at hm
  · intro h
    match h with
    | 0 | 1 => decide
    | n + 2 => rfl

end Inspector
