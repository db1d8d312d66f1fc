import Verif.Spec.Tools
/-
Proofs about the command line tools.
-/
namespace Inspector
open Spec
variable {P2 P3 : Type}

/-- end of `main` -/
def finish (pf : Platform P2 P3) : Except Failure Unit × World → Outcome
  | (.ok _, w) => .exit 0 w.printed
  | (.error .undefinedBehaviour, _) => .undefined
  | (.error .outOfFuel, _) => .unfinished
  | (.error f, w) => .exit (pf.lippincott f) w.printed

theorem runMain_eq (pf : Platform P2 P3) (flags : List Flag) (arguments : List String)
    (body : (String → String) → Tool Unit) :
    runMain pf flags arguments body = match pf.parse flags arguments with
      | .stop code => .exit code []
      | .values get => finish pf ((body get).run {}) := by
  unfold runMain
  cases pf.parse flags arguments with
  | stop code => rfl
  | values get => rfl

theorem contract_of (pf : Platform P2 P3) (flags : List Flag) (arguments : List String)
    (body : (String → String) → Tool Unit) (result : (String → String) → Except Failure String → Prop)
    (h1 : ∀ flag, ∃ res, result flag res)
    (h2 : ∀ flag res, result flag res → Shows pf res (finish pf ((body flag).run {}))) :
    Contract pf flags arguments result (runMain pf flags arguments body) := by
  rw [runMain_eq]
  cases h : pf.parse flags arguments with
  | stop code => exact Or.inl ⟨code, h, rfl⟩
  | values get =>
    obtain ⟨res, hr⟩ := h1 get
    exact Or.inr ⟨get, h, ⟨res, hr, h2 get res hr⟩, h2 get⟩

theorem loadedThen_exists.{u} {α : Type u} {β : Type} (loaded : Except Failure α) (inspect : α → Except Failure β)
    (text : β → String) : ∃ res, LoadedThen loaded inspect text res := by
  cases h : loaded with
  | error f => exact ⟨_, .notLoaded f rfl⟩
  | ok x => cases h' : inspect x with
    | error f => exact ⟨_, .notInspected x f rfl h'⟩
    | ok r => exact ⟨_, .inspected x r rfl h'⟩

theorem shows_error (pf : Platform P2 P3) (f : Failure) (w : World) (hw : w.printed = []) :
    Shows pf (.error f) (finish pf (.error f, w)) := by
  cases f
  · have := Shows.exception (pf := pf) .openGeodeException (Or.inl rfl)
    simpa [finish, hw] using this
  · have := Shows.exception (pf := pf) .otherException (Or.inr rfl)
    simpa [finish, hw] using this
  · exact .undefined
  · exact .unfinished

theorem shows_load.{u} {α : Type u} {β : Type} (pf : Platform P2 P3)
    (loader : List InputLibrary → String → Except Failure α) (file : String) (inspect : α → Except Failure β)
    (text : β → String) (libs : List InputLibrary) (res : Except Failure String)
    (h : LoadedThen (loader libs file) inspect text res) :
    Shows pf res (finish pf ((load loader file fun x => do
      let result ← evaluate (inspect x)
      info (text result)).run ⟨libs, []⟩)) := by
  have e : (load loader file fun x => do
      let result ← evaluate (inspect x)
      info (text result)).run ⟨libs, []⟩ = match loader libs file with
        | .error f => ((.error f, ⟨libs, []⟩) : Except Failure Unit × World)
        | .ok x => match inspect x with
          | .error f => (.error f, ⟨libs, []⟩)
          | .ok r => (.ok (), ⟨libs, [text r]⟩) := by
    show (match loader libs file with
      | .ok x => (do
          let result ← evaluate (inspect x)
          info (text result) : Tool Unit)
      | .error f => throw f : Tool Unit) ⟨libs, []⟩ = _
    cases loader libs file with
    | error f => rfl
    | ok x =>
      show (do
          let result ← evaluate (inspect x)
          info (text result) : Tool Unit) ⟨libs, []⟩ = _
      show _ = (match inspect x with
          | .error f => (.error f, ⟨libs, []⟩)
          | .ok r => (.ok (), ⟨libs, [text r]⟩) : Except Failure Unit × World)
      cases inspect x <;> rfl
  rw [e]
  cases h with
  | notLoaded f h => rw [h]; exact shows_error pf f _ rfl
  | notInspected x f h h' => rw [h]; simp only [h']; exact shows_error pf f _ rfl
  | inspected x r h h' => rw [h]; simp only [h']; exact .report _

theorem both_exists {α β : Type} (first : Bool) (a : Except Failure α) (b : Except Failure β) :
    ∃ both, Both first a b both := by
  cases a with
  | error f => cases b with
    | error f' => cases first with
      | false => exact ⟨.error f, Or.inl ⟨f, rfl, .inl rfl, rfl⟩⟩
      | true => exact ⟨.error f', Or.inr (Or.inl ⟨f', rfl, .inl rfl, rfl⟩)⟩
    | ok y => exact ⟨.error f, Or.inl ⟨f, rfl, .inr ⟨y, rfl⟩, rfl⟩⟩
  | ok x => cases b with
    | error f => exact ⟨.error f, Or.inr (Or.inl ⟨f, rfl, .inr ⟨x, rfl⟩, rfl⟩)⟩
    | ok y => exact ⟨.ok (x, y), Or.inr (Or.inr ⟨x, y, rfl, rfl, rfl⟩)⟩

theorem shows_load_both {α β γ : Type} (pf : Platform P2 P3) (first : Bool)
    (loader : List InputLibrary → String → Except Failure α) (file : String)
    (loader' : List InputLibrary → String → Except Failure β) (file' : String)
    (inspect : α × β → Except Failure γ)
    (text : γ → String) (libs : List InputLibrary) {loaded : Except Failure (α × β)} (res : Except Failure String)
    (hb : Both first (loader libs file) (loader' libs file') loaded)
    (h : LoadedThen loaded inspect text res) :
    Shows pf res (finish pf ((loadTwo first loader file loader' file' fun x y => do
      let result ← evaluate (inspect (x, y))
      info (text result)).run ⟨libs, []⟩)) := by
  have e {δ : Type} (ld : List InputLibrary → String → Except Failure δ) (name : String) (k : δ → Tool Unit) :
      (load ld name k).run ⟨libs, []⟩ = match ld libs name with
        | .error f => ((.error f, ⟨libs, []⟩) : Except Failure Unit × World)
        | .ok x => (k x).run ⟨libs, []⟩ := by
    show (match ld libs name with
      | .ok x => k x
      | .error f => throw f : Tool Unit) ⟨libs, []⟩ = _
    cases ld libs name <;> rfl
  have failed {f : Failure} (hl : loaded = .error f) : res = .error f := by
    subst hl
    cases h with
    | notLoaded f' h => cases h; rfl
    | notInspected x f' h => cases h
    | inspected x r h => cases h
  unfold loadTwo
  rcases hb with ⟨f, h1, h2, h3⟩ | ⟨f, h1, h2, h3⟩ | ⟨x, y, h1, h2, h3⟩
  · rw [failed h3]
    cases first with
    | false =>
      rw [if_neg (by decide), e, h1]
      exact shows_error pf _ _ rfl
    | true =>
      rcases h2 with h2 | ⟨y, h2⟩
      · cases h2
      · rw [if_pos rfl, e, h2]
        simp only []
        rw [e, h1]
        exact shows_error pf _ _ rfl
  · rw [failed h3]
    cases first with
    | true =>
      rw [if_pos rfl, e, h1]
      exact shows_error pf _ _ rfl
    | false =>
      rcases h2 with h2 | ⟨x, h2⟩
      · cases h2
      · rw [if_neg (by decide), e, h2]
        simp only []
        rw [e, h1]
        exact shows_error pf _ _ rfl
  · subst h3
    have h' : LoadedThen (loader' libs file') (fun y => inspect (x, y)) text res := by
      rw [h2]
      cases h with
      | notLoaded f' h => cases h
      | notInspected z f' h hf => cases h; exact .notInspected _ _ rfl hf
      | inspected z r h hr => cases h; exact .inspected _ _ rfl hr
    have hx : LoadedThen (loader libs file) (fun x => inspect (x, y)) text res := by
      rw [h1]
      cases h with
      | notLoaded f' h => cases h
      | notInspected z f' h hf => cases h; exact .notInspected _ _ rfl hf
      | inspected z r h hr => cases h; exact .inspected _ _ rfl hr
    cases first with
    | false =>
      rw [if_neg (by decide), e, h1]
      exact shows_load pf loader' file' (fun y => inspect (x, y)) text libs res h'
    | true =>
      rw [if_pos rfl, e, h2]
      exact shows_load pf loader file (fun x => inspect (x, y)) text libs res hx

/-- a test of the extension -/
theorem run_creator (pf : Platform P2 P3) (kind : InputKind) (ext : String) (a b : Tool Unit) (w : World) :
    ((do if ← hasCreator pf kind ext then a else b : Tool Unit).run w) =
      if w.libraries.any (fun l => pf.provides l kind ext) then a.run w else b.run w := by
  show (if w.libraries.any (fun l => pf.provides l kind ext) then a else b : Tool Unit) w = _
  split <;> rfl

theorem registered_iff (pf : Platform P2 P3) (kind : InputKind) (ext : String) :
    (meshLibraries.any fun l => pf.provides l kind ext) = true ↔ Registered pf kind ext := by
  simp [Registered, List.any_eq_true]

theorem run_yes {pf : Platform P2 P3} {kind : InputKind} {ext : String} (h : Registered pf kind ext)
    (a b : Tool Unit) :
    ((do if ← hasCreator pf kind ext then a else b : Tool Unit).run ⟨meshLibraries, []⟩) = a.run ⟨meshLibraries, []⟩ := by
  rw [run_creator, if_pos ((registered_iff ..).2 h)]

theorem run_no {pf : Platform P2 P3} {kind : InputKind} {ext : String} (h : ¬ Registered pf kind ext)
    (a b : Tool Unit) :
    ((do if ← hasCreator pf kind ext then a else b : Tool Unit).run ⟨meshLibraries, []⟩) = b.run ⟨meshLibraries, []⟩ := by
  rw [run_creator, if_neg (fun h' => h ((registered_iff ..).1 h'))]

/-- the first kind that is registered is the only one read -/
theorem readAs_nil (pf : Platform P2 P3) (ext : String) (k : InputKind) : ¬ ReadAs pf [] ext k := by
  rintro ⟨b, a, h, _⟩
  simp at h

theorem readAs_cons (pf : Platform P2 P3) (kinds : List InputKind) (ext : String) (k0 k : InputKind) :
    ReadAs pf (k0 :: kinds) ext k ↔
      (Registered pf k0 ext ∧ k = k0) ∨ (¬ Registered pf k0 ext ∧ ReadAs pf kinds ext k) := by
  constructor
  · rintro ⟨b, a, h, hr, hb⟩
    cases b with
    | nil =>
      simp only [List.nil_append, List.cons.injEq] at h
      exact Or.inl ⟨h.1 ▸ hr, h.1.symm⟩
    | cons b0 b =>
      simp only [List.cons_append, List.cons.injEq] at h
      refine Or.inr ⟨h.1 ▸ hb b0 (by simp), b, a, h.2, hr, fun x hx => hb x (by simp [hx])⟩
  · rintro (⟨h, rfl⟩ | ⟨h, b, a, h1, h2, h3⟩)
    · exact ⟨[], kinds, rfl, h, by simp⟩
    · exact ⟨k0 :: b, a, by simp [h1], h2, by simpa using ⟨h, h3⟩⟩

theorem notRegistered_cons (pf : Platform P2 P3) (kinds : List InputKind) (ext : String) (k0 : InputKind) :
    (∀ k ∈ k0 :: kinds, ¬ Registered pf k ext) ↔ ¬ Registered pf k0 ext ∧ ∀ k ∈ kinds, ¬ Registered pf k ext := by
  simp

theorem contract_stop {pf : Platform P2 P3} {flags : List Flag} {arguments : List String}
    {result : (String → String) → Except Failure String → Prop} {outcome : Outcome}
    (h : Contract pf flags arguments result outcome) {code : Nat} (hp : pf.parse flags arguments = .stop code) :
    outcome = .exit code [] := by
  rcases h with ⟨c, h1, h2⟩ | ⟨flag, h1, _⟩
  · rw [hp] at h1; injection h1 with h1; rw [h2, h1]
  · rw [hp] at h1; cases h1

theorem contract_ok {pf : Platform P2 P3} {flags : List Flag} {arguments : List String}
    {result : (String → String) → Except Failure String → Prop} {outcome : Outcome}
    (h : Contract pf flags arguments result outcome) {flag : String → String}
    (hp : pf.parse flags arguments = .values flag) {text : String} (hr : result flag (.ok text)) :
    outcome = .exit 0 [text] := by
  rcases h with ⟨c, h1, h2⟩ | ⟨flag', h1, _, h3⟩
  · rw [hp] at h1; cases h1
  · rw [hp] at h1
    injection h1 with h1
    subst h1
    cases h3 _ hr with
    | report => rfl

theorem contract_printed {pf : Platform P2 P3} {flags : List Flag} {arguments : List String}
    {result : (String → String) → Except Failure String → Prop} {outcome : Outcome}
    (h : Contract pf flags arguments result outcome) {flag : String → String}
    (hp : pf.parse flags arguments = .values flag) (hl : ∀ f, pf.lippincott f ≠ 0) {code : Nat} {printed : List String}
    (ho : outcome = .exit code printed) :
    (code = 0 ∧ ∃ text, result flag (.ok text) ∧ printed = [text]) ∨ (code ≠ 0 ∧ printed = []) := by
  rcases h with ⟨c, h1, h2⟩ | ⟨flag', h1, ⟨res, hr, hs⟩, _⟩
  · rw [hp] at h1; cases h1
  · rw [hp] at h1
    injection h1 with h1
    subst h1
    cases hs with
    | report text => injection ho with h1 h2; exact Or.inl ⟨h1.symm, text, hr, h2.symm⟩
    | exception f => injection ho with h1 h2; exact Or.inr ⟨by rw [← h1]; exact hl f, h2.symm⟩
    | undefined => cases ho
    | unfinished => cases ho

end Inspector
