import Verif.Spec.Texts
import Verif.Props.Errors
namespace Traverse
variable {κ : Type}

def Msg.every : List Msg :=
  [.filterIsNil, .filterMissingType, .filterCustomNotSupported, .filterChildGlobExNotSupported, .filterUndefined,
   .failedToGetNavigatorDriver, .incase, .coreIncase, .workerPool, .missingFiles, .missingDirectories, .missingCustomFilter,
   .patternField, .extGlob, .coreExtGlob, .polyFilter, .missingTreePath, .missingRestorePath, .missingSubscription, .missingHandler,
   .idGenerator, .unEqual, .invalidPath, .traverseFs, .resumeFs, .coreResumeFs, .saved, .notSaved, .corePanic, .configFile,
   .prohibitive, .permissive]

theorem Msg.mem_every (m : Msg) : m ∈ Msg.every := by cases m <;> decide

theorem Msg.lookup_some (m : Msg) (v n : String) : (m.lookup v n).isSome = true ↔ m.has n := by
  unfold Msg.lookup Msg.has
  by_cases hs : n = "SourceID"
  · subst hs; cases m <;> simp [Msg.own]
  · cases m <;> simp [Msg.own, hs, @eq_comm _ "Pattern" n, @eq_comm _ "Path" n, @eq_comm _ "ConfigFileName" n] <;>
      (split <;> simp_all)

theorem Msg.fill_some (m : Msg) (v : String) (ps : List Part) : (m.fill v ps).isSome = true ↔ m.asks ps := by
  induction ps with
  | nil => simp [Msg.fill, Msg.asks]
  | cons p ps ih =>
    have hd : m.asks (p :: ps) ↔ (∀ n, p = .field n → m.has n) ∧ m.asks ps := by
      unfold Msg.asks
      constructor
      · exact fun h => ⟨fun n e => h n (e ▸ List.mem_cons_self), fun n e => h n (List.mem_cons_of_mem _ e)⟩
      · rintro ⟨h1, h2⟩ n hn
        rcases List.mem_cons.mp hn with e | e
        · exact h1 n e.symm
        · exact h2 n e
    rw [hd]
    cases p with
    | lit s => simp [Msg.fill, ih]
    | field n =>
      have := m.lookup_some v n
      simp only [Part.field.injEq, forall_eq', ← ih, ← this, Msg.fill]
      cases m.lookup v n <;> cases m.fill v ps <;> simp

theorem Occurs.refl (a : String) : Occurs a a := ⟨"", "", by simp⟩
theorem Occurs.left {a b : String} (c : String) (h : Occurs a b) : Occurs a (c ++ b) := by
  obtain ⟨p, q, e⟩ := h; exact ⟨c ++ p, q, by simp [e, String.append_assoc]⟩
theorem Occurs.right {a b : String} (c : String) (h : Occurs a b) : Occurs a (b ++ c) := by
  obtain ⟨p, q, e⟩ := h; exact ⟨p, q ++ c, by simp [e, String.append_assoc]⟩

theorem Msg.fill_occurs (m : Msg) (v n : String) (hn : m.own = some n) (ps : List Part) (hp : .field n ∈ ps) (t : String)
    (h : m.fill v ps = some t) : Occurs v t := by
  induction ps generalizing t with
  | nil => cases hp
  | cons p ps ih =>
    cases p with
    | lit s =>
      simp only [Msg.fill, Option.map_eq_some_iff] at h
      obtain ⟨b, hb, rfl⟩ := h
      have hp : Part.field n ∈ ps := by simpa using hp
      exact (ih hp b hb).left s
    | field k =>
      simp only [Msg.fill, Option.bind_eq_bind, Option.bind_eq_some_iff, Option.pure_def, Option.some.injEq] at h
      obtain ⟨a, ha, b, hb, rfl⟩ := h
      rcases List.mem_cons.mp hp with e | e
      · cases e
        simp only [Msg.lookup, hn, if_true, Option.some.injEq] at ha
        subst ha
        exact (Occurs.refl _).right b
      · exact (ih e b hb).left a

/-- **C74** Every error variable of the library says in English what its name says: all but ErrPolyFilterIsInvalid, which says "filter
is nil". -/
theorem C74_variables_partial (s : Sentinel) (h : s ≠ .polyFilterIsInvalid) : s.text english = some s.says := by
  cases s <;> first | exact absurd rfl h | decide

/-- **C74** What is missing there: an invalid poly filter is reported as a filter that is nil. -/
theorem C74_poly_says_nil :
    Sentinel.polyFilterIsInvalid.text english = some "filter is nil" ∧
    Sentinel.polyFilterIsInvalid.text english = Sentinel.filterIsNil.text english ∧
    (∀ tr, Sentinel.polyFilterIsInvalid.text tr = Sentinel.filterIsNil.text tr) ∧
    Sentinel.polyFilterIsInvalid.text english ≠ some Sentinel.polyFilterIsInvalid.says := by
  refine ⟨by decide, by decide, fun _ => rfl, by decide⟩

/-- **C74** Errors can be told apart by what they say in English: no two variables say the same, but for the two above and the two of
the same name in core and filtering. -/
theorem C74_distinct_partial (s t : Sentinel) (h : s.text english = t.text english) :
    s = t ∨ (s ∈ [.polyFilterIsInvalid, .filterIsNil] ∧ t ∈ [Sentinel.polyFilterIsInvalid, .filterIsNil]) ∨
    (s ∈ [.invalidResumeStateTransition, .filteringInvalidResumeStateTransition] ∧
      t ∈ [Sentinel.invalidResumeStateTransition, .filteringInvalidResumeStateTransition]) := by
  revert h
  cases s <;> cases t <;> decide

example : Sentinel.filterUndefined.text english = some "filter is undefined" ∧
    Sentinel.filterUndefined.text english ≠ Sentinel.filterIsNil.text english := by decide

/-- **C74** What the functions that make errors make says what it is and what the argument was, for all arguments: all but the two that
report on a panic. -/
theorem C74_made_partial (c : ErrCall) (h : ¬ c.ofPanic) (o : Others) (show_ : GoErr → String) :
    c.made.text english o = some (c.says show_) := by
  have app : ∀ a b c : String, a ++ (b ++ c) = (a ++ b) ++ c := fun a b c => (String.append_assoc).symm
  cases c with
  | TraversalSaved d p => exact absurd trivial h
  | TraversalNotSaved p r => exact absurd trivial h
  | NoSubordinateHybridSchemesDefined => rfl
  | TraverseFsMismatch => exact congrArg some (show "traverse-fs" ++ "" ++ ", " ++ ("resume file system mismatch" ++ "") = "traverse-fs, resume file system mismatch" by decide)
  | ResumeFsMismatch => exact congrArg some (show "resume-fs" ++ "" ++ ", " ++ ("resume file system mismatch" ++ "") = "resume-fs, resume file system mismatch" by decide)
  | InvalidIncaseFilterDef s =>
    show some ("invalid incase filter definition; pattern is missing separator" ++ "" ++ ", " ++ ("pattern: " ++ (s ++ ""))) = some ("invalid incase filter definition; pattern is missing separator, pattern: " ++ s)
    rw [app]; simp
  | InvalidExtGlobFilterMissingSeparator s =>
    show some ("invalid glob ex filter definition; pattern is missing separator" ++ "" ++ ", " ++ ("pattern: " ++ (s ++ ""))) = some ("invalid glob ex filter definition; pattern is missing separator, pattern: " ++ s)
    rw [app]; simp
  | InvalidNotificationMuteRequested s => exact congrArg some (String.append_assoc (s₁ := "notification: " ++ s) (s₂ := ": ") (s₃ := "invalid notification mute requested"))
  | InvalidResumeStateTransition s => exact congrArg some (String.append_assoc (s₁ := "state: " ++ s) (s₂ := ": ") (s₃ := "invalid resume state transition detected"))
  | ItemAlreadyExtended s => exact congrArg some (String.append_assoc (s₁ := "path: " ++ s) (s₂ := ": ") (s₃ := "item already extended for item"))
  | MissingHibernationDetacherFunction s => exact congrArg some (String.append_assoc (s₁ := "state: " ++ s) (s₂ := ": ") (s₃ := "missing listen detacher function"))
  | InvalidPeriscopeRootPath t c =>
    refine congrArg some (Eq.trans (b := "tree: '" ++ t ++ "', current: '" ++ c ++ "'" ++ (": " ++ "tree path can't be longer than current")) String.append_assoc ?_)
    exact String.append_assoc (s₁ := "tree: '" ++ t ++ "', current: '" ++ c) (s₂ := "'") (s₃ := ": " ++ "tree path can't be longer than current")
  | ResumeControllerNotSet s => exact congrArg some (String.append_assoc (s₁ := "from: " ++ s) (s₂ := ": ") (s₃ := "resume controller not set"))
  | BrokerTopicNotFound s => exact congrArg some (String.append_assoc (s₁ := "topic: " ++ s) (s₂ := ": ") (s₃ := "broker topic not found"))
  | FilteringInvalidResumeStateTransition s => exact congrArg some (String.append_assoc (s₁ := "state: " ++ s) (s₂ := ": ") (s₃ := "invalid resume state transition detected"))

example : ((ErrCall.InvalidExtGlobFilterMissingSeparator "foo").made.text english ⟨fun _ => "", fun _ => ""⟩) =
    some "invalid glob ex filter definition; pattern is missing separator, pattern: foo" := by decide +kernel

/-- **C74** What is missing there: the error of a session that panicked has no English text, saved or not, since its template asks for a
field its data does not have; no translation at all makes the error of a saved session say where it was saved; and there are translations
under which both have a text. -/
theorem C74_panic_says_nothing (d : String) (p r : GoErr) (o : Others) :
    (newTraversalSaved d p).text english o = none ∧ (newTraversalNotSaved p r).text english o = none ∧
    (∀ tr d' p', (newTraversalSaved d p).text tr o = (newTraversalSaved d' p').text tr o) ∧
    (∃ tr, (newTraversalSaved d p).text tr o = some "panic occurred, saved" ∧
      (newTraversalNotSaved p r).text tr o = (r.text tr o).map ("panic occurred, not saved (" ++ · ++ ")")) := by
  refine ⟨rfl, rfl, fun _ _ _ => rfl,
    ⟨fun i => if i = "traversal-saved.age.dynamic-error" then some [.lit "saved"]
      else if i = "traversal-not-saved.age.dynamic-error" then some [.lit "not saved"] else none, ?_, ?_⟩⟩
  · simp [newTraversalSaved, GoErr.text, Sentinel.text, Sentinel.data, Msg.text, Msg.id, Msg.other, Msg.fill]
  · simp only [newTraversalNotSaved, GoErr.text, Sentinel.text, Sentinel.data, Msg.text, Msg.id, Msg.other]
    simp
    cases GoErr.text _ o r <;> simp [Msg.fill]

/-- **C74** In every language, the error about a pattern contains the pattern, if the template asks for it (the English ones do). -/
theorem C74_pattern (tr : Translation) (o : Others) (p t : String) :
    (.field "Pattern" ∈ (tr Msg.incase.id).getD Msg.incase.other → (newInvalidIncaseFilterDef p).text tr o = some t → Occurs p t) ∧
    (.field "Pattern" ∈ (tr Msg.extGlob.id).getD Msg.extGlob.other →
      (newInvalidExtGlobFilterMissingSeparator p).text tr o = some t → Occurs p t) := by
  constructor
  · intro hp h
    simp only [newInvalidIncaseFilterDef, GoErr.text, Option.bind_eq_bind, Option.bind_eq_some_iff, Option.pure_def,
      Option.some.injEq] at h
    obtain ⟨a, _, b, hb, rfl⟩ := h
    exact (Msg.fill_occurs .incase p "Pattern" rfl _ hp b hb).left _
  · intro hp h
    simp only [newInvalidExtGlobFilterMissingSeparator, GoErr.text, Option.bind_eq_bind, Option.bind_eq_some_iff, Option.pure_def,
      Option.some.injEq] at h
    obtain ⟨a, _, b, hb, rfl⟩ := h
    exact (Msg.fill_occurs .extGlob p "Pattern" rfl _ hp b hb).left _

example : Part.field "Pattern" ∈ (english Msg.incase.id).getD Msg.incase.other ∧
    (newInvalidIncaseFilterDef "*.txt").text english ⟨fun _ => "", fun _ => ""⟩ =
      some "invalid incase filter definition; pattern is missing separator, pattern: *.txt" := by decide +kernel

/-- **C74** In every language a message has a text just if its template asks for no field but those of its data; in English all have one
but the two about a panic. -/
theorem C74_fields_partial (tr : Translation) (m : Msg) (v : String) :
    ((m.text tr v).isSome = true ↔ m.asks ((tr m.id).getD m.other)) ∧
    ((m.text english v).isSome = true ↔ m ≠ .saved ∧ m ≠ .notSaved) := by
  refine ⟨m.fill_some v _, ?_⟩
  cases m <;> simp [Msg.text, english, Msg.other, Msg.fill, Msg.lookup, Msg.own]

example : Msg.configFile.text english "a.yml" = some "Using config file: a.yml" ∧
    ¬ Msg.saved.asks Msg.saved.other := by
  refine ⟨by decide +kernel, fun h => ?_⟩
  have := h "Field" (by decide)
  simp [Msg.has] at this

/-- **C74** Each message can be translated on its own: whatever template one wants for each, there is a translation that gives each
message its template; and a message's text is not changed by translations of other messages. -/
theorem C74_translations :
    (∀ want : Msg → List Part, ∃ tr : Translation, ∀ (m : Msg) (v : String), m.text tr v = m.fill v (want m)) ∧
    (∀ (tr : Translation) (m m' : Msg) (ps : List Part) (v : String), m ≠ m' →
      m.text (fun i => if i = m'.id then some ps else tr i) v = m.text tr v) := by
  have inj : ∀ m m' : Msg, m.id = m'.id → m = m' := by
    intro m m' h
    have : ∀ m ∈ Msg.every, ∀ m' ∈ Msg.every, m.id = m'.id → m = m' := by decide +kernel
    exact this m m.mem_every m' m'.mem_every h
  constructor
  · intro want
    refine ⟨fun i => (Msg.every.find? (fun m => m.id = i)).map want, fun m v => ?_⟩
    have : Msg.every.find? (fun m' => m'.id = m.id) = some m := by
      cases h : Msg.every.find? (fun m' => m'.id = m.id) with
      | none => simpa using List.find?_eq_none.mp h m m.mem_every
      | some k => exact congrArg some (inj k m (by simpa using List.find?_some h))
    simp [Msg.text, this]
  · intro tr m m' ps v h
    have : m.id ≠ m'.id := fun e => h (inj _ _ e)
    simp [Msg.text, this]

/-- **C74** What a client wraps around an error with a message is put in front of its text. -/
theorem C74_wrapped (tr : Translation) (o : Others) (texts : List String) (e : GoErr) :
    (around (texts.map (fun t => .wrap (.message t))) e).text tr o =
      (e.text tr o).map (fun s => texts.foldl (fun s t => t ++ ": " ++ s) s) := by
  induction texts generalizing e with
  | nil => simp [around]
  | cons t ts ih =>
    have := ih (.wrap (.message t) e)
    simp only [around, List.map_cons, List.foldl_cons, Layer.put] at this ⊢
    rw [this]
    cases h : e.text tr o <;> simp [GoErr.text, h]

example : (around ([ "opening", "starting"].map (fun t => .wrap (.message t))) (newBrokerTopicNotFound "x")).text english
    ⟨fun _ => "", fun _ => ""⟩ = some "starting: opening: topic: x: broker topic not found" := by decide +kernel

/-- **C74** Of two joined errors both are shown, each on a line of its own; the reason a state was not saved for is shown, if there is a
text at all; unequal options are named. -/
theorem C74_shown (tr : Translation) (o : Others) (a b : GoErr) (s t : String) (ha : a.text tr o = some s) (hb : b.text tr o = some t) :
    (around [.after b] a).text tr o = some (s ++ "\n" ++ t) ∧ (around [.before b] a).text tr o = some (t ++ "\n" ++ s) ∧
    (∀ u, (newTraversalNotSaved b a).text tr o = some u → Occurs s u) ∧
    (∀ f, ∃ u, (PersistErr.unequal f).go.text tr o = some u ∧ Occurs f u) := by
  refine ⟨by simp [around, Layer.put, GoErr.text, ha, hb], by simp [around, Layer.put, GoErr.text, ha, hb], ?_, ?_⟩
  · intro u h
    simp only [newTraversalNotSaved, GoErr.text, Option.bind_eq_bind, Option.bind_eq_some_iff, Option.pure_def, Option.some.injEq] at h
    obtain ⟨p, -, q, -, r, hr, rfl⟩ := h
    rw [ha] at hr; cases hr
    exact ((Occurs.refl s).left _).right _
  · intro f
    exact ⟨_, rfl, (((Occurs.refl f).left _).right _).right _⟩

example : (around [.after (newBrokerTopicNotFound "x")] (.known .nilForest)).text english ⟨fun _ => "", fun _ => ""⟩ =
    some "forest is nil\ntopic: x: broker topic not found" := by decide +kernel

/-! ### Sessions -/

/-- The text of the error of a session, in English. -/
def Report.text (r : Report κ) (o : Others) : Option String := r.error.bind (GoErr.text english o)

theorem BuildErr.go_known (b : BuildErr) (s : Sentinel) (hs : s.outer = false)
    (hn : s ∉ [.extGlobMissingSeparator, .resumeFsMismatch, .unEqualConversion]) (h : b.go.is s = true) : b.go = .known s := by
  have hk : ∀ t : Sentinel, (GoErr.known t).is s = true → GoErr.known t = .known s := by
    intro t ht
    simp only [GoErr.is, beq_iff_eq] at ht
    rw [ht]
  have hne : ∀ t : Sentinel, t ∈ [Sentinel.extGlobMissingSeparator, .resumeFsMismatch, .unEqualConversion] → (t == s) = false := by
    intro t ht
    rw [beq_eq_false_iff_ne]
    rintro rfl
    exact hn ht
  cases b with
  | option e => rw [BuildErr.go, go_not e s hs] at h; cases h
  | filter e =>
    cases e with
    | client e => rw [BuildErr.go, FilterErr.go, go_not e s hs] at h; cases h
    | badRegex => cases h
    | badSubPattern _ => cases h
    | missingSeparator p => exact absurd (show (Sentinel.extGlobMissingSeparator == s) = true from h) (by simp [hne .extGlobMissingSeparator])
    | _ => exact hk _ h
  | load e =>
    cases e with
    | io e => rw [BuildErr.go, PersistErr.go, go_not e s hs] at h; cases h
    | «syntax» => cases h
    | unequal f => exact absurd (show (Sentinel.unEqualConversion == s) = true from h) (by simp [hne .unEqualConversion])
  | traverseFsMismatch => exact absurd (show (Sentinel.resumeFsMismatch == s) = true from h) (by simp [hne .resumeFsMismatch])
  | resumeFsMismatch => exact absurd (show (Sentinel.resumeFsMismatch == s) = true from h) (by simp [hne .resumeFsMismatch])
  | pool e => rw [BuildErr.go, GoErr.is, go_not e s hs] at h; cases h
  | _ => exact hk _ h

/-- **C74** The error of a session that could not be built, primary or resumed, says in English what it is, whichever of the errors of
the library it is: all but the invalid poly filter, which is reported as a filter that is nil. The error of an extended glob without a
separator, of mismatching file systems and of unequal options is wrapped: `C74_separator`, `C74_mismatch`. -/
theorem C74_session_partial (P : Platform κ) (facade : Facade κ) (settings : List (Option (Setting κ)))
    (files : String → Except Err Json) (disk : Disk) (x : κ) (s : Sentinel) (o : Others) (hs : s.outer = false)
    (hn : s ∉ [.extGlobMissingSeparator, .resumeFsMismatch, .unEqualConversion]) (rep : Report κ)
    (hr : rep = walkPrime P facade settings disk x ∨ rep = walkResume P facade settings files disk x) (h : rep.Says s) :
    rep.text o = some (if s = .polyFilterIsInvalid then "filter is nil" else s.says) := by
  obtain ⟨b, hv, hb⟩ := (says_iff rep s hs).1 h
  have : rep.error = some (.known s) := by rw [Report.error, hv]; exact congrArg some (b.go_known s hs hn hb)
  rw [Report.text, this]
  show s.text english = _
  split
  · next h => subst h; exact C74_poly_says_nil.1
  · next h => exact C74_variables_partial s h

/-- **C74** A session that panicked below the root returns an error that has no English text. -/
theorem C74_session_panic {P : Platform κ} {u : Using κ} {settings : List (Option (Setting κ))} {disk : Disk} {S : Setup} {o : Options κ}
    {h : κ → Parcel → κ × Reply} {pre : Path} {fs : FS} (hs : Started P u settings disk S o h pre fs) (hsort : SortPermutes (o.nav u.sub))
    (hread : ReadSelects (o.nav u.sub)) (x : κ) (n : Node) (hroot : n.path ≠ u.tree) (others : Others) :
    let rep := walkPrime P (.using u) settings disk x
    (n, .panic) ∈ rep.answers → rep.error.isSome = true ∧ rep.text others = none := by
  intro rep hn
  obtain ⟨before, k, a, -, -, hv, -⟩ := C17_session_partial P u settings disk S o h pre fs hs hsort hread x n hroot hn
  show (Report.error (walkPrime P (.using u) settings disk x)).isSome = true ∧ Report.text (walkPrime P (.using u) settings disk x) others = none
  rw [Report.text, Report.error, hv]
  refine ⟨rfl, ?_⟩
  show (Err.go (Rescue.err _)).text english others = none
  cases (o.defects.panic k a).2 with
  | saved d => exact (C74_panic_says_nothing d (.foreign 0) (.foreign 0) others).1
  | failed e => exact (C74_panic_says_nothing "" (.foreign 0) e.go others).2.1

/-- **C74** An extended glob without a separator: the error of the session tells the pattern. -/
theorem C74_separator (P : Platform κ) (u : Using κ) (settings : List (Option (Setting κ))) (o : Options κ) (disk : Disk) (x : κ)
    (hg : Given P u settings o) (d : FilterCore) (hd : o.filter = { node := some (.plain d) }) (hp : d.pattern ≠ "")
    (ht : d.type = .globEx) (hb : '|' ∉ d.pattern.toList) (others : Others) :
    (walkPrime P (.using u) settings disk x).text others =
      some ("invalid glob ex filter definition; pattern is missing separator, pattern: " ++ d.pattern) := by
  have hc : containsChar '|' d.pattern = false := by simpa [containsChar] using hb
  have hf : o.afterwards.filter = { node := some (.plain d) } := hd
  have hp' : (d.pattern != "") = true := by simp [hp]
  have hn : newFilter P.engine (.plain d) { node := some (.plain d) } = .err (.missingSeparator d.pattern) :=
    C52_missing_separator P.engine d _ rfl ht hb
  have hr : registerFilter P.engine o.afterwards = .err (.missingSeparator d.pattern) := by
    simp [registerFilter, createPrimary, FilterOptions.nodeActive, hf, FilterDef.core, hp', hn]
  have hv := ((given_verdict hg disk x).1 _ hr).1
  rw [Report.text, Report.error, hv]
  exact C74_made_partial (.InvalidExtGlobFilterMissingSeparator d.pattern) (fun h => h) others (fun _ => "")

/-- **C74** File systems that are not those of the saved session: the error of the resume tells which of the two it is. -/
theorem C74_mismatch (P : Platform κ) (r : Relic κ) (settings : List (Option (Setting κ))) (files : String → Except Err Json)
    (disk : Disk) (x : κ) (o : Options κ) (s : Saved) (hl : unmarshal P (files r.from) = .ok (o, s))
    (ho : (bindOptions o settings).2 = none) (t rr : Bool) (hs : r.systems s.active.tree = some (t, rr)) (others : Others) :
    (t ≠ s.traverseRelative → (walkResume P (.relic r) settings files disk x).text others = some "traverse-fs, resume file system mismatch") ∧
    (t = s.traverseRelative → rr ≠ s.resumeRelative →
      (walkResume P (.relic r) settings files disk x).text others = some "resume-fs, resume file system mismatch") := by
  obtain ⟨h1, h2, -⟩ := C55_mismatch P r settings files disk x o s hl ho t rr hs
  constructor
  · intro h
    rw [Report.text, Report.error, (h1 h).1]
    exact C74_made_partial .TraverseFsMismatch (fun h => h) others (fun _ => "")
  · intro h h'
    rw [Report.text, Report.error, (h2 h h').1]
    exact C74_made_partial .ResumeFsMismatch (fun h => h) others (fun _ => "")

/-- Sessions and what their errors say: a facade, filters, a poly filter, file systems, a panic. -/
example :
    let P := sortPlatform
    let u : Using Nat := toyUsing .universal
    let others : Others := ⟨fun _ => "", fun _ => ""⟩
    let with_ (f : FilterOptions) := (walkPrime P (.using u) (settingsOf P [some (.filter f none)]) (diskOf [] Demo.fs) 0).text others
    let panicking := walkPrime P (.using { u with handler := some (fun k p => (k, Demo.at_ ["r", "g"] .panic p.node.path)) }) [] (diskOf [] Demo.fs) 0
    (walkPrime P (.using { u with tree := [] }) [] (diskOf [] Demo.fs) 0).text others = some "usage missing tree path" ∧
    with_ { child := some { type := .globEx, pattern := "f" } } = some "glob-ex filter not supported for children" ∧
    with_ { node := some (.plain { type := .globEx, pattern := "f" }) } =
      some "invalid glob ex filter definition; pattern is missing separator, pattern: f" ∧
    with_ { node := some (.both { type := .poly } (.plain { type := .glob, pattern := "f" }) (.plain { type := .poly, pattern := "f" })) } =
      some "filter is nil" ∧
    (walkResume toyPlatform (.relic (toyRelic .spawn)) [] (toyFiles { toyStopped with traverseRelative := true }) toyDiskAll 0).text others =
      some "traverse-fs, resume file system mismatch" ∧
    panicking.error.isSome = true ∧ panicking.text others = none := by
  and_intros <;> decide +kernel

end Traverse
