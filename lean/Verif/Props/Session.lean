import Verif.Proofs.Driver
import Verif.Props.Options
import Verif.Props.Filters
import Verif.Demo.Demo
/-
C27: Begin and End. C28: sessions that cannot be built. C29: facade validation. Primary sessions; resume sessions are in
Props/Resume.lean.
-/
namespace Traverse
variable {κ : Type}

/-- The begin and end notifications. -/
def Obs.isBegin : Obs → Bool
  | .note (.begin _) => true
  | _ => false
def Obs.isEnd : Obs → Bool
  | .note .ended => true
  | _ => false

theorem inner_iff (o : Obs) : o.inner = true ↔ o.isBegin = false ∧ o.isEnd = false := by
  rcases o with (_ | _ | _ | _ | _ | _) | _ <;> simp [Obs.inner, Obs.isBegin, Obs.isEnd]

theorem buildRest_resume {P : Platform κ} {sub res} {o o' : Options κ} {S} (h : buildRest P sub res o = .ready S o') :
    S.resume = res ∧ S.nav.sub = sub := by
  unfold buildRest at h
  split at h
  · cases h
  · split at h
    · cases h
    · cases h
    · split at h
      · cases h
      · cases h
      · cases h; exact ⟨rfl, rfl⟩

theorem buildPrimary_resume {P : Platform κ} {u : Using κ} {settings} {S o} (h : buildPrimary P (.using u) settings = .ready S o) :
    S.resume = none ∧ S.nav.sub = u.sub := by
  unfold buildPrimary at h
  split at h
  · cases h
  · exact buildRest_resume h

/-- A ready session's report is bracketed. -/
theorem ready_bracket (S : Setup) (o : Options κ) (h : κ → Parcel → κ × Reply) (disk : Disk) (tree : Path) (x : κ)
    (hS : S.resume = none) (hp : (Built.navigate (.ready S o) h disk tree x).verdict ≠ .panic) :
    ∃ mid, (Built.navigate (.ready S o) h disk tree x).tape = .note (.begin tree) :: mid ++ [.note .ended] ∧
      ∀ o ∈ mid, o.inner = true := by
  have hm : ∀ e, (S.world x (fun _ => none)).loud e := by intro e; simp [World.loud, Setup.world, hS]
  have hw : ((S.world x (fun _ => none)).publish (o.client h) (.begin tree)).tape = [.note (.begin tree)] := by
    have := hm .begin
    unfold World.loud at this
    simp only [World.publish, Note.ev, this]
    rfl
  have hl : ∀ e, ((S.world x (fun _ => none)).publish (o.client h) (.begin tree)).loud e := by
    intro e; unfold World.loud; rw [publish_muted]; exact hm e
  have h1 := runTop_inner S o (o.client h) disk tree []
    ⟨0, (S.world x (fun _ => none)).publish (o.client h) (.begin tree), []⟩
  have h2 := runTop_loud S o (o.client h) disk tree []
    ⟨0, (S.world x (fun _ => none)).publish (o.client h) (.begin tree), []⟩ .ended (hl _)
  simp only [Built.navigate] at hp ⊢
  rcases hr : runTop S o (o.client h) disk tree []
    ⟨0, (S.world x (fun _ => none)).publish (o.client h) (.begin tree), []⟩ with ⟨f, s⟩
  rw [hr] at h1 h2 hp
  simp only [hw, InnerSince] at h1 h2 hp ⊢
  cases f with
  | panic => exact absurd rfl hp
  | done e =>
    obtain ⟨mid, h1, h3⟩ := h1
    refine ⟨mid, ?_, h3⟩
    unfold World.loud at h2
    simp [World.publish, Note.ev, h2, h1]

/-- **C27** (primary sessions; spawn: `C27_spawn_partial`, fastward, of which it is false: `C27_fastward_no_begin`) In a primary
session that was built, if the program does not crash: Begin comes first, with the tree path, and
once; End comes last, and once. Everything else the client side sees, all handler calls included, lies between. -/
theorem C27_bracket_partial (P : Platform κ) (u : Using κ) (settings : List (Option (Setting κ))) (disk : Disk) (x : κ)
    (S : Setup) (o : Options κ) (hb : buildPrimary P (.using u) settings = .ready S o)
    (hp : (walkPrime P (.using u) settings disk x).verdict ≠ .panic) :
    ∃ mid, (walkPrime P (.using u) settings disk x).tape = .note (.begin u.tree) :: mid ++ [.note .ended] ∧
      ∀ o ∈ mid, o.isBegin = false ∧ o.isEnd = false := by
  have hS := (buildPrimary_resume hb).1
  simp only [walkPrime, hb] at hp ⊢
  obtain ⟨mid, h1, h2⟩ := ready_bracket S o _ disk u.tree x hS hp
  exact ⟨mid, h1, fun o ho => (inner_iff o).1 (h2 o ho)⟩

/-- A facade that lacks nothing. -/
def Using.Complete (u : Using κ) : Prop := u.tree ≠ [] ∧ u.sub ≠ .undefined ∧ u.handler.isSome = true

theorem validate_none (u : Using κ) : u.validate = none ↔ u.Complete := by
  unfold Using.validate Using.Complete
  by_cases h1 : u.tree = []
  · simp [h1]
  · by_cases h2 : u.sub = .undefined
    · simp [h1, h2]
    · cases h3 : u.handler <;> simp [h1, h2]

/-- Nothing happened: the error, no handler call, no notification, the client's state as it was. -/
def Report.Nothing (r : Report κ) (e : BuildErr) (x : κ) : Prop :=
  r.verdict = .unbuilt e ∧ r.tape = [] ∧ r.hits = [] ∧ r.client = x

theorem hades_nothing (e : BuildErr) (h : κ → Parcel → κ × Reply) (disk : Disk) (tree : Path) (x : κ) :
    ((Built.hades e : Built κ).navigate h disk tree x).Nothing e x := ⟨rfl, rfl, rfl, rfl⟩

theorem platform_invalid (P : Platform κ) (u : Using κ) (settings : List (Option (Setting κ))) (e : BuildErr) (he : u.validate = some e) :
    (primaryPlatform P (.using u) settings).2 = some e := by
  simp only [primaryPlatform]
  cases u.o with
  | some o => exact he
  | none => simp [he]

/-- **C29** (the half about primary sessions; the other one is false, see `C29_relic_unchecked`) Facades of primary sessions: an incomplete one is refused, the error naming what is missing first, whatever the
options; nothing else is done. The facade of a resume session is refused too. -/
theorem C29_refused_partial (P : Platform κ) (u : Using κ) (settings : List (Option (Setting κ))) (disk : Disk) (x : κ) :
    (u.tree = [] → (walkPrime P (.using u) settings disk x).Nothing .missingTree x) ∧
    (u.tree ≠ [] → u.sub = .undefined → (walkPrime P (.using u) settings disk x).Nothing .missingSubscription x) ∧
    (u.tree ≠ [] → u.sub ≠ .undefined → u.handler = none → (walkPrime P (.using u) settings disk x).Nothing .missingHandler x) ∧
    (∀ r : Relic κ, (walkPrime P (.relic r) settings disk x).Nothing .wrongPrimaryFacade x) := by
  have key : ∀ e, u.validate = some e → (walkPrime P (.using u) settings disk x).Nothing e x := by
    intro e he
    have h1 := platform_invalid P u settings e he
    have : buildPrimary P (.using u) settings = .hades e := by
      unfold buildPrimary
      rcases hpp : primaryPlatform P (.using u) settings with ⟨o, e'⟩
      rw [hpp] at h1
      simp only at h1
      rw [h1]
    simp only [walkPrime, this]
    exact hades_nothing e _ disk u.tree x
  refine ⟨fun h => key _ ?_, fun h1 h2 => key _ ?_, fun h1 h2 h3 => key _ ?_, fun r => ?_⟩
  · simp [Using.validate, h]
  · simp [Using.validate, h1, h2]
  · simp [Using.validate, h1, h2, h3]
  · simp only [walkPrime, buildPrimary, primaryPlatform]
    exact hades_nothing _ _ disk [] x

/-- **C29** (primary sessions) A complete facade is accepted: it is never the reason for a failure. -/
theorem C29_accepted_partial (P : Platform κ) (u : Using κ) (settings : List (Option (Setting κ))) (disk : Disk) (x : κ) (hu : u.Complete) :
    ∀ e, (walkPrime P (.using u) settings disk x).verdict = .unbuilt e →
      e ≠ .missingTree ∧ e ≠ .missingSubscription ∧ e ≠ .missingHandler ∧ e ≠ .wrongPrimaryFacade := by
  intro e he
  have hv := (validate_none u).2 hu
  have hrest : ∀ o e, ((buildRest P u.sub none o).navigate (u.handler.getD (fun k _ => (k, .ok none))) disk u.tree x).verdict
      = .unbuilt e → ∃ fe, e = .filter fe := by
    intro o e h
    unfold buildRest at h
    rw [if_neg hu.2.1] at h
    revert h
    split
    · intro h; simp only [Built.navigate, Verdict.unbuilt.injEq] at h; exact ⟨_, h.symm⟩
    · intro h; simp [Built.navigate] at h
    · split
      · intro h; simp only [Built.navigate, Verdict.unbuilt.injEq] at h; exact ⟨_, h.symm⟩
      · intro h; simp [Built.navigate] at h
      · intro h
        simp only [Built.navigate] at h
        split at h <;> simp at h
  simp only [walkPrime, buildPrimary] at he
  rcases hpp : primaryPlatform P (.using u) settings with ⟨o, _ | e'⟩
  · simp only [hpp] at he
    obtain ⟨fe, rfl⟩ := hrest _ _ he
    simp
  · simp only [hpp, Built.navigate, Verdict.unbuilt.injEq] at he
    subst he
    simp only [primaryPlatform, hv] at hpp
    cases ho : u.o with
    | some o => simp [ho] at hpp
    | none =>
      simp only [ho, Prod.mk.injEq] at hpp
      cases hs : (getOptions P settings).2 with
      | none => simp [hs] at hpp
      | some e =>
        simp only [hs, Option.map_some, Option.some.injEq] at hpp
        rw [← hpp.2]; simp

/-- **C28** An option that fails: its error is returned (wherever the option stands), and nothing else happens. -/
theorem C28_option_error (P : Platform κ) (u : Using κ) (settings : List (Option (Setting κ))) (disk : Disk) (x : κ) (e : Err)
    (hu : u.Complete) (ho : u.o = none) (he : (getOptions P settings).2 = some e) :
    (walkPrime P (.using u) settings disk x).Nothing (.option e) x := by
  have hv := (validate_none u).2 hu
  have : buildPrimary P (.using u) settings = .hades (.option e) := by
    unfold buildPrimary
    simp [primaryPlatform, ho, hv, he]
  simp only [walkPrime, this]
  exact hades_nothing _ _ disk u.tree x

/-- The options a session works with: those of the facade, or those made of the settings. -/
def harvested (P : Platform κ) (u : Using κ) (settings : List (Option (Setting κ))) : Options κ :=
  (match u.o with
    | some o => o.rebind
    | none => (getOptions P settings).1).afterwards

theorem buildPrimary_ok (P : Platform κ) (u : Using κ) (settings : List (Option (Setting κ))) (hu : u.Complete)
    (hok : u.o = none → (getOptions P settings).2 = none) :
    buildPrimary P (.using u) settings = buildRest P u.sub none (harvested P u settings) := by
  have hv := (validate_none u).2 hu
  unfold buildPrimary
  cases ho : u.o with
  | some o => simp [primaryPlatform, harvested, ho, hv]
  | none => simp [primaryPlatform, harvested, ho, hv, hok ho]

/-- What the filter plugin cannot be registered with: a client's own filter that says it is not valid, and the definition of a node
filter, of a sample filter (if there is no node filter), or of a child filter that cannot be made. -/
inductive Unregistrable (E : Engine) (o : Options κ) : FilterErr → Prop where
  | custom (c e) : o.filter.custom = some c → c.validate = some e → Unregistrable E o (.client e)
  | node (d e) : o.filter.custom = none → o.filter.node = some d → d.core.pattern ≠ "" ∨ d.poly.isSome = true →
      newFilter E d o.filter = .err e → Unregistrable E o e
  | sample (e) : o.filter.custom = none → o.filter.nodeActive = false → o.filter.sample.isSome = true →
      newSample E o.filter.sample o.sampling.files o.sampling.dirs = .err e → Unregistrable E o e
  | child (d e p) : createPrimary E o = .ok p → o.filter.child = some d → d.pattern ≠ "" → newChild E d = .err e → Unregistrable E o e

theorem unregistrable_err {E : Engine} {o : Options κ} {e} (h : Unregistrable E o e) : registerFilter E o = .err e := by
  cases h with
  | custom c e h1 h2 => simp [registerFilter, createPrimary, h1, h2]
  | node d _ h1 h2 h3 h4 =>
    have ha : o.filter.nodeActive = true := by
      simp only [FilterOptions.nodeActive, h2]
      rcases h3 with h3 | h3 <;> simp [h3]
    simp [registerFilter, createPrimary, h1, ha, h2, h4]
  | sample _ h1 h2 h3 h4 => simp [registerFilter, createPrimary, h1, h2, h3, h4]
  | child d _ p h1 h2 h3 h4 =>
    obtain ⟨p1, o1⟩ := p
    have ho : o1.filter = o.filter := by
      unfold createPrimary at h1
      split at h1
      · split at h1 <;> cases h1
        rfl
      · split at h1
        · split at h1
          · cases h1
          · split at h1 <;> cases h1
            rfl
        · split at h1
          · split at h1 <;> cases h1
            rfl
          · cases h1; rfl
    simp [registerFilter, h1, createChild, ho, h2, h3, h4]

/-- **C28** A filter that cannot be made keeps the plugin from being registered: the filter's error is returned, and
nothing else happens. -/
theorem C28_unregistrable (P : Platform κ) (u : Using κ) (settings : List (Option (Setting κ))) (disk : Disk) (x : κ)
    (hu : u.Complete) (hok : u.o = none → (getOptions P settings).2 = none) (e : FilterErr)
    (he : Unregistrable P.engine (harvested P u settings) e) :
    (walkPrime P (.using u) settings disk x).Nothing (.filter e) x := by
  have : buildPrimary P (.using u) settings = .hades (.filter e) := by
    rw [buildPrimary_ok P u settings hu hok]
    simp [buildRest, hu.2.1, unregistrable_err he]
  simp only [walkPrime, this]
  exact hades_nothing _ _ disk u.tree x

/-- **C28** In general: a session that returns an error of building never calls the handler. It publishes nothing, unless
the reason is a hibernation filter (which is made when the plugin is initialised, not when it is registered): then Begin and
End are published, with nothing between. -/
theorem C28_no_calls (P : Platform κ) (facade : Facade κ) (settings : List (Option (Setting κ))) (disk : Disk) (x : κ) (e : BuildErr)
    (he : (walkPrime P facade settings disk x).verdict = .unbuilt e) :
    (walkPrime P facade settings disk x).hits = [] ∧
    ((walkPrime P facade settings disk x).Nothing e x ∨
      ∃ u fe, facade = .using u ∧ e = .filter fe ∧
        (walkPrime P facade settings disk x).tape = [.note (.begin u.tree), .note .ended]) := by
  have gen : ∀ (b : Built κ) h tree, (b.navigate h disk tree x).verdict = .unbuilt e →
      (b.navigate h disk tree x).hits = [] ∧ ((b.navigate h disk tree x).Nothing e x ∨
        ((∃ o, b = .stillborn e o) ∧ (b.navigate h disk tree x).tape = [.note (.begin tree), .note .ended])) := by
    intro b h tree hv
    cases b with
    | crash => simp [Built.navigate] at hv
    | hades e' =>
      simp only [Built.navigate, Verdict.unbuilt.injEq] at hv
      subst hv
      exact ⟨rfl, Or.inl (hades_nothing e' h disk tree x)⟩
    | stillborn e' o =>
      simp only [Built.navigate, Verdict.unbuilt.injEq] at hv
      subst hv
      exact ⟨rfl, Or.inr ⟨⟨o, rfl⟩, rfl⟩⟩
    | ready S o =>
      simp only [Built.navigate] at hv
      split at hv <;> simp at hv
  cases facade with
  | relic r =>
    obtain ⟨h1, h2⟩ := gen _ _ _ he
    refine ⟨h1, ?_⟩
    rcases h2 with h2 | ⟨⟨o, h3⟩, h2⟩
    · exact Or.inl h2
    · simp [buildPrimary, primaryPlatform] at h3
  | «using» u =>
    obtain ⟨h1, h2⟩ := gen _ _ _ he
    refine ⟨h1, ?_⟩
    rcases h2 with h2 | ⟨⟨o, h3⟩, h2⟩
    · exact Or.inl h2
    · refine Or.inr ⟨u, ?_⟩
      have : ∃ fe, e = .filter fe := by
        unfold buildPrimary at h3
        split at h3
        · cases h3
        · unfold buildRest at h3
          simp only at h3
          split at h3
          · cases h3
          · split at h3
            · cases h3
            · cases h3
            · split at h3 <;> cases h3
              exact ⟨_, rfl⟩
      obtain ⟨fe, rfl⟩ := this
      exact ⟨fe, rfl, rfl, h2⟩

/-- **C28, what is done in vain**: a hibernation filter with a regular expression that does not compile. -/
theorem C28_hibernation_begins (P : Platform κ) (u : Using κ) (hu : u.Complete) (ho : u.o = none) (disk : Disk) (x : κ)
    (pattern : String) (hbad : P.engine.compiles pattern = false) :
    let d : FilterDef := .plain { type := .regex, pattern := pattern }
    let r := walkPrime P (.using u) (settingsOf P [some (.filterWake (some d))]) disk x
    r.verdict = .unbuilt (.filter .badRegex) ∧ r.tape = [.note (.begin u.tree), .note .ended] ∧ r.hits = [] := by
  intro d r
  have : ∃ o, buildPrimary P (.using u) (settingsOf P [some (.filterWake (some d))]) = .stillborn (.filter .badRegex) o := by
    rw [buildPrimary_ok P u _ hu (fun _ => rfl)]
    unfold buildRest
    rw [if_neg hu.2.1]
    have hf : (harvested P u (settingsOf P [some (.filterWake (some d))])).filter = {} := by
      simp only [harvested, ho]; rfl
    have hh : (harvested P u (settingsOf P [some (.filterWake (some d))])).hibernate.wakeAt = some d := by
      simp only [harvested, ho]; rfl
    generalize harvested P u (settingsOf P [some (.filterWake (some d))]) = o at hf hh
    have h1 : registerFilter P.engine o = .ok ({}, o) := by
      simp [registerFilter, createPrimary, createChild, hf, FilterOptions.nodeActive]
    have h2 : initHibernation P.engine o = .err .badRegex := by
      simp [initHibernation, makeTrigger, hh, hf, newFilter, buildPoly, d, FilterDef.core, buildNative, hbad]
    rw [h1]
    simp only [h2]
    exact ⟨o, rfl⟩
  obtain ⟨o, ho⟩ := this
  simp only [r, walkPrime, ho]
  exact ⟨rfl, rfl, rfl⟩

/-! ### Cases -/

/-- A platform to try things on: a toy pattern engine, a sort that leaves the order alone. -/
def toyPlatform : Platform Nat where
  cpus := 4
  engine := toyEngine
  sortSlice _ l := l
  save k _ := (k, .saved "dest")

/-- A disk with the demo tree at /r. -/
def toyDisk : Disk := fun p => if p = ["r"] then .ok Demo.fs else .error (.code 2)

/-- The client counts the calls of its handler. -/
def toyUsing (sub : Subscription) : Using Nat where
  tree := ["r"]
  sub := sub
  handler := some (fun k _ => (k + 1, .ok none))

/-- A whole session with an option and a listener: the bracket, the calls, the count. -/
example :
    let r := walkPrime toyPlatform (.using (toyUsing .files))
      (settingsOf toyPlatform [some (.depth 2), none, some (.on .begin (fun _ k => k + 100))]) toyDisk 0
    r.verdict = .done none ∧ r.client = 104 ∧
    (r.tape.filterMap fun o => match o with
      | .note (.begin t) => some ("begin", t) | .note .ended => some ("end", []) | .note _ => none | .call n => some ("call", n.path)) =
      [("begin", ["r"]), ("call", ["r", "a", "x"]), ("call", ["r", "c", "w"]), ("call", ["r", "f"]), ("call", ["r", "g"]),
        ("end", [])] := by
  decide +kernel

/-- Incomplete facades, a failing option, and a bad filter. -/
example :
    (walkPrime toyPlatform (.using { toyUsing .files with handler := none }) [] toyDisk 0).verdict = .unbuilt .missingHandler ∧
    (walkPrime toyPlatform (.using (toyUsing .files)) [some (fun o => (o, some (.code 7)))] toyDisk 0).verdict
      = .unbuilt (.option (.code 7)) ∧
    (walkPrime toyPlatform (.using (toyUsing .files))
      (settingsOf toyPlatform [some (.filter { node := some (.plain { type := .regex, pattern := "(" }) } none)]) toyDisk 0).verdict
      = .unbuilt (.filter .badRegex) := by
  decide +kernel

example : (toyUsing .files).Complete := by simp [Using.Complete, toyUsing]

end Traverse
