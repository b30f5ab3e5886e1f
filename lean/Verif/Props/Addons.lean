import Verif.Model.Addons
import Verif.Props.Lo
import Verif.Props.Resume
/-
C68: the add-on that may change the saved state of a resume.
-/
namespace Traverse
variable {κ : Type}

/-- The saved document with another state in it, its options part as it was. -/
def withState (doc : Json) (s : Saved) : Json := .obj [("Active", s.encode), ("JO", doc.get "JO")]

/-- The same files but for one. -/
def replaceFile (files : String → Except Err Json) (name : String) (doc : Json) : String → Except Err Json :=
  fun p => if p = name then .ok doc else files p

theorem seek_first (pre post : List (Addon κ)) (f : OnLoad κ) (hpre : ∀ a ∈ pre, a = none) :
    seekHandler (pre ++ some f :: post) = some f := by
  have : (pre ++ some f :: post).find? Option.isSome = some (some f) := by
    rw [List.find?_append, List.find?_eq_none.mpr (fun a ha => by rw [hpre a ha]; simp)]
    rfl
  simp only [seekHandler, Lo.find_eq, this]

theorem seek_none (addons : List (Addon κ)) (h : ∀ a ∈ addons, a = none) : seekHandler addons = none := by
  have : addons.find? Option.isSome = none := List.find?_eq_none.mpr (fun a ha => by rw [h a ha]; simp)
  simp only [seekHandler, Lo.find_eq, this]

/-- Without a handler, the platform is that of a resume without add-ons. -/
theorem platformWith_none (P : Platform κ) (r : Relic κ) (settings file) (addons : List (Addon κ)) (x : κ)
    (h : seekHandler addons = none) :
    resumePlatformWith P r settings file addons x = (x, some (resumePlatform P r settings file)) := by
  unfold resumePlatformWith resumePlatform resumeOptions
  cases unmarshal P file with
  | error e => simp only [h]
  | ok p =>
    obtain ⟨o, saved⟩ := p
    simp only [h]
    cases hb : bindOptions o settings with
    | mk o' err => cases err <;> rfl

theorem unmarshal_withState (P : Platform κ) (doc : Json) (o : Options κ) (s s' : Saved) (h : unmarshal P (.ok doc) = .ok (o, s)) :
    unmarshal P (.ok (withState doc s')) = .ok (o, s') := by
  have e1 : (withState doc s').get "Active" = s'.encode := rfl
  have e2 : (withState doc s').get "JO" = doc.get "JO" := rfl
  simp only [unmarshal, e1, e2, decodeSaved_encode] at h ⊢
  cases hs : decodeSaved (doc.get "Active") with
  | none => rw [hs] at h; simp at h
  | some s0 =>
    cases hj : decodeOptions (doc.get "JO") with
    | none => rw [hs, hj] at h; simp at h
    | some j =>
      rw [hs, hj] at h
      simp only at h ⊢
      split at h
      · cases h
      · rename_i hc
        simp only [Except.ok.injEq, Prod.mk.injEq] at h
        rw [h.1]

/-- With a handler that leaves `s'`, the platform is the one of the document with `s'` in it. -/
theorem platformWith_edit (P : Platform κ) (r : Relic κ) (settings) (doc : Json) (addons : List (Addon κ)) (x : κ) (f : OnLoad κ)
    (h : seekHandler addons = some f) (o : Options κ) (s s' : Saved) (hl : unmarshal P (.ok doc) = .ok (o, s))
    (hf : (f.edit x s).2 = some s') :
    resumePlatformWith P r settings (.ok doc) addons x =
      ((f.edit x s).1, some (resumePlatform P r settings (.ok (withState doc s')))) := by
  unfold resumePlatformWith resumePlatform resumeOptions
  rw [hl, unmarshal_withState P doc o s s' hl]
  simp only [h]
  cases he : f.edit x s with
  | mk k m =>
    rw [he] at hf
    simp only at hf
    subst hf
    cases hb : bindOptions o settings with
    | mk o' err => cases err <;> rfl

/-- **C68** An OnLoad that does not panic and leaves the state `s'` where the file held `s`: the resume is the resume, without
add-ons, of the file with `s'` in it, the client being in the state OnLoad left it in — whatever the strategy, the settings, the
disk and the handler. Add-ons before it that have no OnLoad and all add-ons after it make no difference. -/
theorem C68_edit (P : Platform κ) (r : Relic κ) (settings : List (Option (Setting κ))) (pre post : List (Addon κ)) (f : OnLoad κ)
    (hpre : ∀ a ∈ pre, a = none) (files : String → Except Err Json) (disk : Disk) (x : κ) (doc : Json) (o : Options κ) (s s' : Saved)
    (hfile : files r.from = .ok doc) (hl : unmarshal P (.ok doc) = .ok (o, s)) (hf : (f.edit x s).2 = some s') :
    walkResumeWith P (.relic r) settings (pre ++ some f :: post) files disk x =
      .ok (walkResume P (.relic r) settings (replaceFile files r.from (withState doc s')) disk (f.edit x s).1) := by
  simp only [walkResumeWith, walkResume, hfile, platformWith_edit P r settings doc _ x f (seek_first pre post f hpre) o s s' hl hf,
    replaceFile, if_true]
  cases resumePlatform P r settings (.ok (withState doc s')) with
  | error e => rfl
  | ok p => rfl

/-- **C68** The same of a concurrent session. -/
theorem C68_edit_run (P : Platform κ) (r : Relic κ) (settings : List (Option (Setting κ))) (pre post : List (Addon κ))
    (f : OnLoad κ) (hpre : ∀ a ∈ pre, a = none) (files : String → Except Err Json) (pool : Option Err) (disk : Disk) (x : κ)
    (doc : Json) (o : Options κ) (s s' : Saved)
    (hfile : files r.from = .ok doc) (hl : unmarshal P (.ok doc) = .ok (o, s)) (hf : (f.edit x s).2 = some s') :
    runResumeWith P (.relic r) settings (pre ++ some f :: post) files pool disk x =
      .ok (runResume P (.relic r) settings (replaceFile files r.from (withState doc s')) pool disk (f.edit x s).1) := by
  simp only [runResumeWith, runResume, hfile, platformWith_edit P r settings doc _ x f (seek_first pre post f hpre) o s s' hl hf,
    replaceFile, if_true]
  cases resumePlatform P r settings (.ok (withState doc s')) with
  | error e => rfl
  | ok p => rfl

/-- **C68** Add-ons without OnLoad have no effect at all, and on a facade of the wrong kind no OnLoad is called. -/
theorem C68_inert (P : Platform κ) (facade : Facade κ) (settings : List (Option (Setting κ))) (addons : List (Addon κ))
    (h : (∀ a ∈ addons, a = none) ∨ ∃ u, facade = .using u) (files : String → Except Err Json) (pool : Option Err) (disk : Disk) (x : κ) :
    walkResumeWith P facade settings addons files disk x = .ok (walkResume P facade settings files disk x) ∧
    runResumeWith P facade settings addons files pool disk x = .ok (runResume P facade settings files pool disk x) := by
  cases facade with
  | «using» u => exact ⟨rfl, rfl⟩
  | relic r =>
    rcases h with h | ⟨u, h⟩
    · simp only [walkResumeWith, walkResume, runResumeWith, runResume, platformWith_none P r settings _ addons x (seek_none addons h)]
      cases resumePlatform P r settings (files r.from) with
      | error e => exact ⟨rfl, rfl⟩
      | ok p => exact ⟨rfl, rfl⟩
    · cases h

/-- **C68** The full claim: whatever the file, Extent returns a navigator, and if the file cannot be loaded, Navigate says so.
It holds of an OnLoad that returns when it is given nil: it is called with nil, and then the error is reported and nothing else
happens. -/
theorem C68_load_failure_partial (P : Platform κ) (r : Relic κ) (settings : List (Option (Setting κ))) (pre post : List (Addon κ))
    (f : OnLoad κ) (hpre : ∀ a ∈ pre, a = none) (files : String → Except Err Json) (disk : Disk) (x : κ) (e : PersistErr)
    (hl : unmarshal P (files r.from) = .error e) (hf : (f.onNil x).2 = true) :
    ∃ rep, walkResumeWith P (.relic r) settings (pre ++ some f :: post) files disk x = .ok rep ∧ rep.Nothing (.load e) (f.onNil x).1 := by
  simp only [walkResumeWith, resumePlatformWith, resumeOptions, hl, seek_first pre post f hpre, hf, if_true]
  exact ⟨_, rfl, rfl, rfl, rfl, rfl⟩

/-- **C68 is false** of the code otherwise: for every file that cannot be loaded, an OnLoad that uses the state it is given — nil —
makes Extent panic, and the error of the file is never seen. -/
theorem C68_load_failure_panics (P : Platform κ) (r : Relic κ) (settings : List (Option (Setting κ))) (pre post : List (Addon κ))
    (f : OnLoad κ) (hpre : ∀ a ∈ pre, a = none) (files : String → Except Err Json) (disk : Disk) (x : κ) (e : PersistErr)
    (hl : unmarshal P (files r.from) = .error e) (hf : (f.onNil x).2 = false) :
    walkResumeWith P (.relic r) settings (pre ++ some f :: post) files disk x = .error (f.onNil x).1 := by
  simp only [walkResumeWith, resumePlatformWith, resumeOptions, hl, seek_first pre post f hpre, hf, Bool.false_eq_true, if_false]

/-- **C68** Extent panics only if OnLoad does: either it was given the loaded state, or nil for a file that does not load. -/
theorem C68_panics_iff (P : Platform κ) (facade : Facade κ) (settings : List (Option (Setting κ))) (addons : List (Addon κ))
    (files : String → Except Err Json) (disk : Disk) (x k : κ) :
    walkResumeWith P facade settings addons files disk x = .error k ↔
      ∃ r pre f post, facade = .relic r ∧ addons = pre ++ some f :: post ∧ (∀ a ∈ pre, a = none) ∧
        ((∃ e, unmarshal P (files r.from) = .error e ∧ f.onNil x = (k, false)) ∨
          ∃ o s, unmarshal P (files r.from) = .ok (o, s) ∧ f.edit x s = (k, none)) := by
  constructor
  · intro h
    cases facade with
    | «using» u => simp [walkResumeWith] at h
    | relic r =>
      have hseek : ∀ f, seekHandler addons = some f → ∃ pre post, addons = pre ++ some f :: post ∧ ∀ a ∈ pre, a = none := by
        intro f hf
        simp only [seekHandler, Lo.find_eq] at hf
        cases hfi : addons.find? Option.isSome with
        | none => rw [hfi] at hf; cases hf
        | some a =>
          rw [hfi] at hf
          simp only at hf
          subst hf
          obtain ⟨_, pre, post, rfl, hp⟩ := List.find?_eq_some_iff_append.mp hfi
          refine ⟨pre, post, rfl, fun a ha => ?_⟩
          have := hp a ha
          cases a with
          | none => rfl
          | some g => simp at this
      cases hs : seekHandler addons with
      | none =>
        simp only [walkResumeWith, platformWith_none P r settings _ addons x hs] at h
        split at h <;> simp_all
      | some f =>
        obtain ⟨pre, post, ha, hp⟩ := hseek f hs
        refine ⟨r, pre, f, post, rfl, ha, hp, ?_⟩
        simp only [walkResumeWith, resumePlatformWith, resumeOptions, hs] at h
        cases hl : unmarshal P (files r.from) with
        | error e =>
          refine Or.inl ⟨e, rfl, ?_⟩
          rw [hl] at h
          simp only at h
          cases hn : f.onNil x with
          | mk k' b =>
            rw [hn] at h
            cases b with
            | false => simp only [Bool.false_eq_true, if_false, Except.error.injEq] at h; rw [h]
            | true => simp at h
        | ok p =>
          obtain ⟨o, s⟩ := p
          refine Or.inr ⟨o, s, rfl, ?_⟩
          rw [hl] at h
          simp only at h
          cases hb : bindOptions o settings with
          | mk o' err =>
            rw [hb] at h
            cases hn : f.edit x s with
            | mk k' m =>
              rw [hn] at h
              cases m with
              | none => simp only [Option.map_none, Except.error.injEq] at h; rw [h]
              | some s' =>
                cases err with
                | some e => simp at h
                | none =>
                  simp only [Option.map_some] at h
                  split at h <;> simp_all
  · rintro ⟨r, pre, f, post, rfl, rfl, hp, ⟨e, hl, hf⟩ | ⟨o, s, hl, hf⟩⟩
    · simp only [walkResumeWith, resumePlatformWith, resumeOptions, hl, seek_first pre post f hp, hf, Bool.false_eq_true, if_false]
    · simp only [walkResumeWith, resumePlatformWith, resumeOptions, hl, seek_first pre post f hp, hf, Option.map_none]

/-! ### Cases -/

/-- An add-on that counts (by tens) and sends the resume back to /r/a. -/
def toyEditor : OnLoad Nat where
  edit k s := (k + 10, some { s with active := { s.active with currentPath := ["r", "a"], depth := 1 } })
  onNil k := (k + 100, false)

/-- Not vacuous: the state saved in /r/c; with the add-on the spawn resume begins at /r/a instead and visits more. The second
handler in the list is not called. -/
example :
    let files := toyFiles toyStopped
    let run (addons : List (Addon Nat)) :=
      match walkResumeWith toyPlatform (.relic (toyRelic .spawn)) [] addons files toyDiskAll 0 with
      | .ok rep => some (rep.client, rep.hits.map (fun (h : Hit) => h.parcel.node.path))
      | .error _ => none
    run [none] = some (4, [["r", "c"], ["r", "c", "w"], ["r", "f"], ["r", "g"]]) ∧
    run [none, some toyEditor, some toyEditor] = some (19, [["r", "a"], ["r", "a", "b"], ["r", "a", "b", "y"], ["r", "a", "b", "z"],
      ["r", "a", "x"], ["r", "c"], ["r", "c", "w"], ["r", "f"], ["r", "g"]]) := by
  decide +kernel

/-- Not vacuous: a missing file and that add-on: Extent panics; with an add-on that looks at what it is given, the error. -/
example :
    let bad : String → Except Err Json := fun _ => .error (.code 2)
    let run (f : OnLoad Nat) : Bool × Nat :=
      match walkResumeWith toyPlatform (.relic (toyRelic .spawn)) [] [some f] bad toyDiskAll 0 with
      | .error k => (false, k)
      | .ok rep => (rep.tape.isEmpty && rep.hits.isEmpty, rep.client)
    run toyEditor = (false, 100) ∧ run { toyEditor with onNil := fun k => (k + 1, true) } = (true, 1) := by
  decide +kernel

end Traverse
