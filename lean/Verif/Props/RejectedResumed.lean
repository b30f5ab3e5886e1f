import Verif.Props.Rejected
import Verif.Props.Errors
import Verif.Props.Again
import Verif.Props.Texts
/-
C28, C60: filters that are refused when a session is resumed. The filter may be the saved one or given with the settings.
-/
namespace Traverse
variable {κ : Type}

/-- The file is loaded, the file systems are those of the saved session, which has a subscription, and no setting fails: `o` are the
options of the resumed session. No hibernation is defined. -/
structure GivenBack (P : Platform κ) (r : Relic κ) (settings : List (Option (Setting κ))) (files : String → Except Err Json) (o : Options κ) :
    Prop where
  loaded : ∃ a, resumePlatform P r settings (files r.from) = .ok (o, a) ∧ a.sub ≠ .undefined
  wakeAt : o.hibernate.wakeAt = none
  sleepAt : o.hibernate.sleepAt = none

/-- A primary session with the same options is refused for the same reason. -/
theorem back_alike {P : Platform κ} {r : Relic κ} {settings files o} (hg : GivenBack P r settings files o) (disk : Disk) (x : κ) :
    ∃ u st, Given P u st o ∧
      (∀ e, (walkResume P (.relic r) settings files disk x).verdict = .unbuilt e ↔ (walkPrime P (.using u) st disk x).verdict = .unbuilt e) ∧
      (∀ e, (walkPrime P (.using u) st disk x).Nothing e x → (walkResume P (.relic r) settings files disk x).Nothing e x) := by
  obtain ⟨a, h1, hsub⟩ := hg.loaded
  let u : Using κ := { tree := ["t"], sub := a.sub, handler := some (fun k _ => (k, .ok none)) }
  have hgu : Given P u [some (fun _ => (o, none))] o :=
    ⟨rfl, ⟨by simp [u], hsub, by simp [u]⟩, rfl, hg.wakeAt, hg.sleepAt⟩
  refine ⟨u, [some (fun _ => (o, none))], hgu, ?_⟩
  have hb : buildPrimary P (.using u) [some (fun _ => (o, none))] = buildRest P u.sub none o.afterwards := by
    rw [buildPrimary_ok P u _ hgu.complete (fun _ => by rw [hgu.options])]
    simp only [harvested, hgu.noOptions, hgu.options]
  simp only [walkResume, walkPrime, h1, hb]
  cases hr : registerFilter P.engine o.afterwards with
  | err e =>
    have e1 : ∀ st, buildRest P a.sub st o.afterwards = .hades (.filter e) := by intro st; simp [buildRest, hsub, hr]
    rw [e1, e1]
    refine ⟨fun e' => by simp [Built.resume, Built.navigate], fun e' h => ?_⟩
    have := h.1
    simp only [Built.navigate, Verdict.unbuilt.injEq] at this
    subst this
    exact ⟨rfl, rfl, rfl, rfl⟩
  | panic =>
    have e1 : ∀ st, buildRest P a.sub st o.afterwards = .crash := by intro st; simp [buildRest, hsub, hr]
    rw [e1, e1]
    refine ⟨fun e' => by simp [Built.resume, Built.navigate], fun e' h => ?_⟩
    have := h.1
    simp [Built.navigate] at this
  | ok fo =>
    obtain ⟨f, o1⟩ := fo
    have hh : o1.hibernate = o.afterwards.hibernate := registerFilter_keeps hr
    have hi : ∃ hib, initHibernation P.engine o1 = .ok hib := by
      have hw : o.afterwards.hibernate = o.hibernate := rfl
      simp only [initHibernation, hh, hw, hg.wakeAt, hg.sleepAt, makeTrigger]
      exact ⟨_, rfl⟩
    obtain ⟨hib, hi⟩ := hi
    have e1 : ∀ st, ∃ S o₁, buildRest P a.sub st o.afterwards = .ready S o₁ := by intro st; simp [buildRest, hsub, hr, hi]
    obtain ⟨S1, o1', q1⟩ := e1 (some r.strategy)
    obtain ⟨S2, o2', q2⟩ := e1 none
    rw [q1, q2]
    have n1 : ∀ h st disk e, ((Built.ready S1 o1').resume st h disk a x).verdict ≠ .unbuilt e := by
      intro h st disk e hv
      rcases resume_verdict hv with h | ⟨o, h⟩ <;> cases h
    refine ⟨fun e => ⟨fun h => absurd h (n1 _ _ _ _), fun h => absurd h (navigate_built _ _ _ _ _)⟩, fun e h => absurd h.1 (navigate_built _ _ _ _ _)⟩

theorem back_says {P : Platform κ} {r : Relic κ} {settings files o} (hg : GivenBack P r settings files o) (disk : Disk) (x : κ) :
    ∃ u st, Given P u st o ∧ ∀ s : Sentinel, s.outer = false →
      ((walkResume P (.relic r) settings files disk x).Says s ↔ (walkPrime P (.using u) st disk x).Says s) := by
  obtain ⟨u, st, h, hv, -⟩ := back_alike hg disk x
  refine ⟨u, st, h, fun s hs => ?_⟩
  rw [says_iff _ _ hs, says_iff _ _ hs]
  simp only [hv]

section
variable (P : Platform κ) (r : Relic κ) (settings : List (Option (Setting κ))) (files : String → Except Err Json) (o : Options κ) (disk : Disk)
  (x : κ) (hg : GivenBack P r settings files o)
include hg

/-- **C28** A resumed session is unbuildable for a child filter exactly when the primary one would be (`C28_child_definition`): the type
is none of the two types a child filter can have, or the regular expression does not compile. Then nothing happens. -/
theorem C28_resumed_child (d : ChildDef) (hd : o.filter = { child := some d }) (hp : d.pattern ≠ "") (ht : d.type ≠ .poly) :
    let rep := walkResume P (.relic r) settings files disk x
    let bad := (d.type ≠ .glob ∧ d.type ≠ .regex) ∨ (d.type = .regex ∧ P.engine.compiles d.pattern = false)
    ((∃ e, rep.verdict = .unbuilt e) ↔ bad) ∧ (bad → ∃ e, rep.Nothing (.filter e) x) := by
  obtain ⟨u, st, h, hv, hn⟩ := back_alike hg disk x
  obtain ⟨h1, h2⟩ := C28_child_definition P u st o disk x h d hd hp ht
  simp only [hv]
  exact ⟨h1, fun hb => (h2 hb).imp fun e he => hn _ he⟩

/-- **C28** A resumed session and a node filter, as `C28_node_definition`. -/
theorem C28_resumed_node (d : FilterCore) (hd : o.filter = { node := some (.plain d) }) (hp : d.pattern ≠ "")
    (ht : d.type ≠ .poly ∧ d.type ≠ .custom ∧ d.type ≠ .globEx) :
    let rep := walkResume P (.relic r) settings files disk x
    let bad := d.type = .undefined ∨ (d.type = .regex ∧ P.engine.compiles d.pattern = false)
    ((∃ e, rep.verdict = .unbuilt e) ↔ bad) ∧ (bad → ∃ e, rep.Nothing (.filter e) x) := by
  obtain ⟨u, st, h, hv, hn⟩ := back_alike hg disk x
  obtain ⟨h1, h2⟩ := C28_node_definition P u st o disk x h d hd hp ht
  simp only [hv]
  exact ⟨h1, fun hb => (h2 hb).imp fun e he => hn _ he⟩

/-- **C28** A resumed session and a sample filter, as `C28_sample_definition`. -/
theorem C28_resumed_sample (d : SampleDef) (hd : o.filter = { sample := some d }) (ht : d.type ≠ .poly ∧ d.type ≠ .globEx) :
    let rep := walkResume P (.relic r) settings files disk x
    let bad := (d.scope.names false = true ∧ o.sampling.files = 0) ∨ (d.scope.names true = true ∧ o.sampling.dirs = 0) ∨
      d.type = .undefined ∨ (d.type = .custom ∧ d.custom.isNone = true) ∨
      (d.type = .custom ∧ ∃ c e, d.custom = some c ∧ c.validate = some e) ∨ (d.type = .regex ∧ P.engine.compiles d.pattern = false)
    ((∃ e, rep.verdict = .unbuilt e) ↔ bad) ∧ (bad → ∃ e, rep.Nothing (.filter e) x) := by
  obtain ⟨u, st, h, hv, hn⟩ := back_alike hg disk x
  obtain ⟨h1, h2⟩ := C28_sample_definition P u st o disk x h d hd ht
  simp only [hv]
  exact ⟨h1, fun hb => (h2 hb).imp fun e he => hn _ he⟩

/-- **C28** A resumed session and a custom filter, as `C28_custom_definition`. -/
theorem C28_resumed_custom (c : CustomFilter) (hc : o.filter.custom = some c) (hch : o.filter.child = none) :
    let rep := walkResume P (.relic r) settings files disk x
    ((∃ e, rep.verdict = .unbuilt e) ↔ ∃ e, c.validate = some e) ∧ (∀ e, c.validate = some e → rep.Nothing (.filter (.client e)) x) := by
  obtain ⟨u, st, h, hv, hn⟩ := back_alike hg disk x
  obtain ⟨h1, h2⟩ := C28_custom_definition P u st o disk x h c hc hch
  simp only [hv]
  exact ⟨h1, fun e he => hn _ (h2 e he)⟩

/-- **C60** (resumed; partial, see `C60_pool_unrecognised`) A child filter: the error tells which type was given. -/
theorem C60_resumed_child_partial (d : ChildDef) (hd : o.filter = { child := some d }) (hp : d.pattern ≠ "") :
    let rep := walkResume P (.relic r) settings files disk x
    (rep.Says .filterChildGlobExNotSupported ↔ d.type = .globEx) ∧ (rep.Says .filterCustomNotSupported ↔ d.type = .custom) ∧
    (rep.Says .filterUndefined ↔ d.type = .undefined) := by
  obtain ⟨u, st, h, hs⟩ := back_says hg disk x
  have := C60_child_partial P u st o disk x h d hd hp
  intro rep
  rw [show rep.Says _ ↔ _ from hs .filterChildGlobExNotSupported rfl, show rep.Says _ ↔ _ from hs .filterCustomNotSupported rfl,
    show rep.Says _ ↔ _ from hs .filterUndefined rfl]
  exact this

/-- **C60** (resumed; partial, see `C60_pool_unrecognised`) A node filter: the error tells that the type, or the separator of an extended
glob, is missing. -/
theorem C60_resumed_node_partial (d : FilterCore) (hd : o.filter = { node := some (.plain d) }) (hp : d.pattern ≠ "") :
    let rep := walkResume P (.relic r) settings files disk x
    (rep.Says .filterMissingType ↔ d.type = .undefined) ∧
    (rep.Says .extGlobMissingSeparator ↔ d.type = .globEx ∧ '|' ∉ d.pattern.toList) := by
  obtain ⟨u, st, h, hs⟩ := back_says hg disk x
  have := C60_node_partial P u st o disk x h d hd hp
  intro rep
  rw [show rep.Says _ ↔ _ from hs .filterMissingType rfl, show rep.Says _ ↔ _ from hs .extGlobMissingSeparator rfl]
  exact this

/-- **C60** (resumed; partial, see `C60_pool_unrecognised`) A sample filter: the error tells which number is missing, and if both are
there, that the type or the custom filter is. -/
theorem C60_resumed_sample_partial (d : SampleDef) (hd : o.filter = { sample := some d }) :
    let rep := walkResume P (.relic r) settings files disk x
    let noFiles := d.scope.names false = true ∧ o.sampling.files = 0
    let noDirs := d.scope.names true = true ∧ o.sampling.dirs = 0
    (rep.Says .missingFiles ↔ noFiles) ∧ (rep.Says .missingDirectories ↔ ¬ noFiles ∧ noDirs) ∧
    (rep.Says .filterMissingType ↔ ¬ noFiles ∧ ¬ noDirs ∧ d.type = .undefined) ∧
    (rep.Says .filterIsNil ↔ ¬ noFiles ∧ ¬ noDirs ∧ d.type = .custom ∧ d.custom.isNone = true) := by
  obtain ⟨u, st, h, hs⟩ := back_says hg disk x
  have := C60_sample_partial P u st o disk x h d hd
  intro rep noFiles noDirs
  rw [show rep.Says _ ↔ _ from hs .missingFiles rfl, show rep.Says _ ↔ _ from hs .missingDirectories rfl,
    show rep.Says _ ↔ _ from hs .filterMissingType rfl, show rep.Says _ ↔ _ from hs .filterIsNil rfl]
  exact this

/-- **C60** (resumed; partial, see `C60_pool_unrecognised`) A poly filter one half of which is a poly filter again: the error says so,
exactly, provided the other half is a glob (which is always well formed). -/
theorem C60_resumed_poly_partial (d file dir : FilterCore) (hd : o.filter = { node := some (.both d (.plain file) (.plain dir)) })
    (ht : d.type = .poly) (hglob : file.type = .glob ∨ dir.type = .glob) :
    (walkResume P (.relic r) settings files disk x).Says .polyFilterIsInvalid ↔ file.type = .poly ∨ dir.type = .poly := by
  obtain ⟨u, st, h, hs⟩ := back_says hg disk x
  rw [hs _ rfl]
  exact C60_poly_partial P u st o disk x h d file dir hd ht hglob

end

/-- **C60** (resumed; partial: the node has a Parent, see `C17_resumed_escapes`) A panic in a resumed session: the error says that a panic
occurred and holds the name of the file the state was saved to, exactly if it was saved. -/
theorem C60_resumed_panic_partial {P : Platform κ} {r : Relic κ} {settings : List (Option (Setting κ))} {files : String → Except Err Json}
    {disk : Disk} {S : Setup} {o : Options κ} {h : κ → Parcel → κ × Reply} {a : Active} (hr : Resumed P r settings files S o h a)
    (hsort : SortPermutes (o.nav a.sub)) (hread : ReadSelects (o.nav a.sub)) (hdisk : Honest disk o) (x : κ) (n : Node) (hpar : n.parent ≠ none) :
    let rep := walkResume P (.relic r) settings files disk x
    (n, .panic) ∈ rep.answers → ∃ k b, rep.Says .panicOccurred ∧
      ∀ d, rep.error.bind GoErr.destination = some d ↔ (o.defects.panic k b).2 = .saved d := by
  intro rep hn
  obtain ⟨before, k, b, -, -, hv, -⟩ := C17_resumed_partial P r settings files disk S o h a hr hsort hread hdisk x n hpar hn
  refine ⟨k, b, ⟨_, ?_, (rescued (o.defects.panic k b).2).1⟩, ?_⟩
  · show Report.error (walkResume P (.relic r) settings files disk x) = _
    rw [Report.error, hv]; rfl
  · intro d
    show (Report.error (walkResume P (.relic r) settings files disk x)).bind _ = _ ↔ _
    rw [Report.error, hv]
    exact (rescued (o.defects.panic k b).2).2 d

/-- **C74** A resumed session in which the handler panicked for a node that has a Parent returns an error that has no English text. -/
theorem C74_resumed_panic {P : Platform κ} {r : Relic κ} {settings : List (Option (Setting κ))} {files : String → Except Err Json}
    {disk : Disk} {S : Setup} {o : Options κ} {h : κ → Parcel → κ × Reply} {a : Active} (hr : Resumed P r settings files S o h a)
    (hsort : SortPermutes (o.nav a.sub)) (hread : ReadSelects (o.nav a.sub)) (hdisk : Honest disk o) (x : κ) (n : Node) (hpar : n.parent ≠ none)
    (others : Others) :
    let rep := walkResume P (.relic r) settings files disk x
    (n, .panic) ∈ rep.answers → rep.error.isSome = true ∧ rep.text others = none := by
  intro rep hn
  obtain ⟨before, k, b, -, -, hv, -⟩ := C17_resumed_partial P r settings files disk S o h a hr hsort hread hdisk x n hpar hn
  show (Report.error (walkResume P (.relic r) settings files disk x)).isSome = true ∧ Report.text (walkResume P (.relic r) settings files disk x) others = none
  rw [Report.text, Report.error, hv]
  refine ⟨rfl, ?_⟩
  show (Err.go (Rescue.err _)).text english others = none
  cases (o.defects.panic k b).2 with
  | saved d => exact (C74_panic_says_nothing d (.foreign 0) (.foreign 0) others).1
  | failed e => exact (C74_panic_says_nothing "" (.foreign 0) e.go others).2.1

/-- **C74** An extended glob without a separator: the error of the resumed session tells the pattern. -/
theorem C74_resumed_separator (P : Platform κ) (r : Relic κ) (settings : List (Option (Setting κ))) (files : String → Except Err Json)
    (o : Options κ) (disk : Disk) (x : κ) (hg : GivenBack P r settings files o) (d : FilterCore)
    (hd : o.filter = { node := some (.plain d) }) (hp : d.pattern ≠ "") (ht : d.type = .globEx) (hb : '|' ∉ d.pattern.toList) (others : Others) :
    (walkResume P (.relic r) settings files disk x).text others =
      some ("invalid glob ex filter definition; pattern is missing separator, pattern: " ++ d.pattern) := by
  obtain ⟨u, st, h, hv, -⟩ := back_alike hg disk x
  have hsep := C74_separator P u st o disk x h d hd hp ht hb others
  have hsays := ((C60_node_partial P u st o disk x h d hd hp).2).2 ⟨ht, hb⟩
  obtain ⟨b, hv', -⟩ := (says_iff _ _ rfl).1 hsays
  have hv2 := (hv b).2 hv'
  rw [Report.text, Report.error, hv'] at hsep
  rw [Report.text, Report.error, hv2]
  exact hsep

/-- Not vacuous: the settings of the resume decide about the filter, by spawning and by fastward; the outcomes the theorems distinguish. -/
example :
    let P := sortPlatform
    let files := savedFile (defaultOptions P) (savedAt ["r"] ["r", "a"] .universal)
    let settings (f : FilterOptions) := settingsOf P [some (.filter f none)]
    let unbuilt (st : Strategy) (f : FilterOptions) : Bool :=
      match (walkResume P (.relic (toyRelic st)) (settings f) files (diskOf [] Demo.fs) 0).verdict with
      | .unbuilt _ => true
      | _ => false
    (∀ f : FilterOptions, ∃ o, GivenBack P (toyRelic .spawn) (settings f) files o ∧ o.filter = f) ∧
    unbuilt .spawn { child := some { type := .regex, pattern := "(" } } = true ∧
    unbuilt .fastward { child := some { type := .regex, pattern := "(" } } = true ∧
    unbuilt .spawn { child := some { type := .regex, pattern := "f" } } = false ∧
    unbuilt .fastward { node := some (.plain { type := .undefined, pattern := "f" }) } = true ∧
    unbuilt .spawn { node := some (.plain { type := .globEx, pattern := "f" }) } = true ∧
    unbuilt .spawn { sample := some { type := .regex, pattern := "f", scope := Scope.file } } = true ∧
    unbuilt .spawn { sample := some { type := .regex, pattern := "f", scope := Scope.leaf } } = false ∧
    unbuilt .spawn { custom := some { isMatch := fun _ => some true, validate := some (.code 4) } } = true ∧
    (walkResume P (.relic (toyRelic .spawn)) (settings { node := some (.plain { type := .globEx, pattern := "f" }) }) files (diskOf [] Demo.fs) 0).text
      ⟨fun _ => "", fun _ => ""⟩ = some "invalid glob ex filter definition; pattern is missing separator, pattern: f" := by
  intro P files settings unbuilt
  refine ⟨fun f => ⟨_, ⟨⟨_, rfl, by decide⟩, rfl, rfl⟩, rfl⟩, by decide +kernel⟩

/-- Not vacuous: a resumed session whose handler panics at "r/g", of `C60_resumed_panic_partial` and `C74_resumed_panic`: it says that a
panic occurred, and no more. -/
example :
    let P := sortPlatform
    let files := savedFile (defaultOptions P) (savedAt ["r"] ["r", "a"] .universal)
    let relic : Relic Nat := { toyRelic .fastward with handler := some (fun k p => (k, Demo.at_ ["r", "g"] .panic p.node.path)) }
    let rep := walkResume P (.relic relic) [] files (diskOf [] Demo.fs) 0
    (∃ S o h a, Resumed P relic [] files S o h a) ∧
    rep.answers.getLast?.map (fun c => (c.1.path, c.1.parent.isSome, c.2)) = some (["r", "g"], true, .panic) ∧
    rep.error.map (fun e => e.is .panicOccurred) = some true ∧ rep.text ⟨fun _ => "", fun _ => ""⟩ = none := by
  intro P files relic rep
  exact ⟨⟨_, _, _, _, ⟨rfl, _, rfl, rfl⟩⟩, by decide +kernel⟩

end Traverse
