import Verif.Spec.Errors
import Verif.Props.Resume
import Verif.Props.Rejected
import Verif.Props.Supplied
import Verif.Props.Resumed
/-
C60: the errors of the library are recognisable.
-/
namespace Traverse
variable {κ : Type}

theorem is_around (s : Sentinel) (layers : List Layer) (e : GoErr) :
    (around layers e).is s = true ↔ e.is s = true ∨ ∃ o ∈ company layers, o.is s = true := by
  induction layers generalizing e with
  | nil => simp [around, company]
  | cons l ls ih =>
    have := ih (l.put e)
    simp only [around, List.foldl_cons] at this ⊢
    rw [this]
    cases l with
    | wrap w => simp [Layer.put, GoErr.is, company]
    | before o =>
      simp only [Layer.put, GoErr.is, company, List.filterMap_cons, List.mem_cons, Bool.or_eq_true]
      constructor
      · rintro ((h | h) | ⟨o', h1, h2⟩)
        · exact .inr ⟨o, .inl rfl, h⟩
        · exact .inl h
        · exact .inr ⟨o', .inr h1, h2⟩
      · rintro (h | ⟨o', h1 | h1, h2⟩)
        · exact .inl (.inr h)
        · subst h1; exact .inl (.inl h2)
        · exact .inr ⟨o', h1, h2⟩
    | after o =>
      simp only [Layer.put, GoErr.is, company, List.filterMap_cons, List.mem_cons, Bool.or_eq_true]
      constructor
      · rintro ((h | h) | ⟨o', h1, h2⟩)
        · exact .inl h
        · exact .inr ⟨o, .inl rfl, h⟩
        · exact .inr ⟨o', .inr h1, h2⟩
      · rintro (h | ⟨o', h1 | h1, h2⟩)
        · exact .inl (.inl h)
        · subst h1; exact .inl (.inr h2)
        · exact .inr ⟨o', h1, h2⟩

/-- **C60** errors.Is finds a library error exactly if it is in the tree of errors. -/
theorem C60_is (s : Sentinel) (e : GoErr) : e.is s = true ↔ InTree s e := by
  constructor
  · intro h
    induction e with
    | known t => simp only [GoErr.is, beq_iff_eq] at h; subst h; exact .self
    | foreign n => simp [GoErr.is] at h
    | wrap w e ih => exact .wrapped _ _ (ih h)
    | join a b iha ihb =>
      simp only [GoErr.is, Bool.or_eq_true] at h
      rcases h with h | h
      · exact .left _ _ (iha h)
      · exact .right _ _ (ihb h)
    | notSaved e r ih _ => exact .panicked _ _ (ih h)
  · intro h
    induction h with
    | self => simp [GoErr.is]
    | wrapped _ _ _ ih => exact ih
    | left _ _ _ ih => simp [GoErr.is, ih]
    | right _ _ _ ih => simp [GoErr.is, ih]
    | panicked _ _ _ ih => exact ih

/-- **C60** Each function that recognises an error says yes to what the function that makes such errors makes, for all arguments, and
however often that is wrapped and joined by clients, and to no other error of the library; not to nil either. -/
theorem C60_recognised (c : ErrCall) (t : ErrTest) (layers : List Layer) :
    (t.run (some (around layers c.made)) = true ↔ t = c.test ∨ ∃ o ∈ company layers, t.run (some o) = true) ∧
    t.run none = false := by
  have run : ∃ s, (∀ e, t.run e = e.any (GoErr.is s)) ∧ (c.made.is s = true ↔ t = c.test) := by
    cases t <;> refine ⟨_, fun e => rfl, ?_⟩ <;> cases c <;> simp only [ErrCall.test, reduceCtorEq, iff_false, iff_true] <;> first | rfl | exact fun h => Bool.noConfusion (show false = true from h)
  obtain ⟨s, h1, h2⟩ := run
  simp only [h1, Option.any_some, Option.any_none, is_around, h2, and_self]

/-- **C60** stock.IsBenignError: nil and the skip sentinels, wrapped or not. -/
theorem C60_benign (e : Option GoErr) :
    isBenignError e = true ↔ ∀ x, e = some x → InTree .skipDir x ∨ InTree .skipAll x := by
  cases e with
  | none => simp [isBenignError]
  | some x => simp [isBenignError, C60_is]

/-- **C60** The destination of a saved traversal is found by errors.As if there is one anywhere among the errors unwrapped to, and
what is found is the destination of one of them; around an error that holds just one, whatever is wrapped around it, it is that. -/
theorem C60_destination (e : GoErr) :
    (e.destination.isSome = true ↔ ∃ d, SavedIn d e) ∧ (∀ d, e.destination = some d → SavedIn d e) ∧
    ∀ texts : List String, (around (texts.map (fun t => .wrap (.message t))) e).destination = e.destination := by
  have h1 : ∀ (e : GoErr) d, e.destination = some d → SavedIn d e := by
    intro e
    induction e with
    | known t => intro d h; cases h
    | foreign n => intro d h; cases h
    | wrap w e ih =>
      intro d h
      cases w with
      | saved d' => simp only [GoErr.destination, Option.some.injEq] at h; subst h; exact .self _
      | _ => exact .wrapped _ _ (ih d h)
    | join a b iha ihb =>
      intro d h
      simp only [GoErr.destination] at h
      cases ha : a.destination with
      | none => rw [ha] at h; exact .right _ _ (ihb d h)
      | some d' => rw [ha] at h; cases h; exact .left _ _ (iha _ ha)
    | notSaved e r ih _ => intro d h; exact .panicked _ _ (ih d h)
  have h2 : ∀ (e : GoErr) d, SavedIn d e → e.destination.isSome = true := by
    intro e d h
    induction h with
    | self e => rfl
    | wrapped w e _ ih => cases w <;> first | rfl | exact ih
    | left a b _ ih =>
      obtain ⟨x, hx⟩ := Option.isSome_iff_exists.mp ih
      simp [GoErr.destination, hx]
    | right a b _ ih =>
      obtain ⟨x, hx⟩ := Option.isSome_iff_exists.mp ih
      simp [GoErr.destination, hx]
    | panicked e r _ ih => exact ih
  refine ⟨⟨fun h => ?_, fun ⟨d, h⟩ => h2 e d h⟩, h1 e, fun texts => ?_⟩
  · obtain ⟨d, hd⟩ := Option.isSome_iff_exists.mp h
    exact ⟨d, h1 e d hd⟩
  · unfold around
    induction texts generalizing e with
    | nil => rfl
    | cons t ts ih => simpa [Layer.put, GoErr.destination] using ih (Layer.put (.wrap (.message t)) e)

/-- Not vacuous: found through a wrapper and a join; the errors of a session that was not saved have none. -/
example : (around [.wrap (.message "walking"), .before (.foreign 3), .wrap .resumeFs] (newTraversalSaved "/tmp/x" (.foreign 1))).destination =
      some "/tmp/x" ∧
    (newTraversalNotSaved (.foreign 1) (newTraversalSaved "/tmp/x" (.foreign 1))).destination = none := by decide +kernel

/-- A joined and wrapped mismatch error passes the mismatch test, an error of a rescued panic does not. -/
example : let l := [Layer.wrap (.message "walking"), .before (.foreign 3), .wrap (.message "again")]
    ErrTest.CoreResumeFsMismatch.run (some (around l newTraverseFsMismatch)) = true ∧
    ErrTest.CoreResumeFsMismatch.run (some (around l (newTraversalSaved "/tmp/x" (.known .resumeFsMismatch)))) = false ∧
    isBenignError (some (around l (.known .skipAll))) = true ∧ isBenignError (some (around l (.foreign 1))) = false := by
  decide +kernel

/-! ### What a session returns -/

/-- The two notions of a skip sentinel agree. -/
theorem go_isSkip (e : Err) : e.go.is .skipDir = e.isSkipDir ∧ e.go.is .skipAll = e.isSkipAll := by
  induction e with
  | skipDir => decide
  | skipAll => decide
  | code n => simp [Err.go, GoErr.is, Err.isSkipDir, Err.isSkipAll]
  | wrap m e ih => simpa [Err.go, GoErr.is, Err.isSkipDir, Err.isSkipAll] using ih
  | join a b iha ihb => simp [Err.go, GoErr.is, Err.isSkipDir, Err.isSkipAll, iha, ihb]
  | saved d => simp [Err.go, newTraversalSaved, GoErr.is, Err.isSkipDir, Err.isSkipAll]
  | notSaved r _ => simp [Err.go, newTraversalNotSaved, GoErr.is, Err.isSkipDir, Err.isSkipAll]

/-- Errors that do not come from the library itself. -/
def Sentinel.outer : Sentinel → Bool
  | .skipDir | .skipAll | .panicOccurred => true
  | _ => false

theorem go_not (e : Err) (s : Sentinel) (hs : s.outer = false) : e.go.is s = false := by
  have h : ∀ t : Sentinel, t.outer = true → (t == s) = false := by
    intro t ht
    rw [beq_eq_false_iff_ne]
    rintro rfl
    rw [hs] at ht; cases ht
  induction e with
  | skipDir => exact h _ rfl
  | skipAll => exact h _ rfl
  | code n => rfl
  | wrap m e ih => exact ih
  | join a b iha ihb => simp [Err.go, GoErr.is, iha, ihb]
  | saved d => exact h _ rfl
  | notSaved r _ => exact h _ rfl

/-- The error a session returned is or contains `s`. -/
def Report.Says (r : Report κ) (s : Sentinel) : Prop := ∃ e, r.error = some e ∧ InTree s e

theorem says_iff (r : Report κ) (s : Sentinel) (hs : s.outer = false) :
    r.Says s ↔ ∃ b, r.verdict = .unbuilt b ∧ b.go.is s = true := by
  unfold Report.Says Report.error
  constructor
  · rintro ⟨e, h1, h2⟩
    cases hv : r.verdict with
    | unbuilt b =>
      simp only [hv, Option.some.injEq] at h1
      exact ⟨b, rfl, by rw [h1, C60_is]; exact h2⟩
    | done o =>
      cases o with
      | none => simp [hv] at h1
      | some o =>
        simp only [hv, Option.map_some, Option.some.injEq] at h1
        subst h1
        rw [← C60_is, go_not o s hs] at h2
        cases h2
    | panic => simp [hv] at h1
  · rintro ⟨b, h1, h2⟩
    exact ⟨b.go, by rw [h1], (C60_is _ _).1 h2⟩

theorem Report.Nothing.says {r : Report κ} {b : BuildErr} {x : κ} (h : r.Nothing b x) (s : Sentinel) (hs : s.outer = false) :
    r.Says s ↔ b.go.is s = true := by
  rw [says_iff r s hs]
  constructor
  · rintro ⟨b', h1, h2⟩
    rw [h.1] at h1; cases h1; exact h2
  · exact fun h2 => ⟨b, h.1, h2⟩

/-- What the errors of building an accepted primary session are. -/
theorem accepted_errors (P : Platform κ) (u : Using κ) (settings : List (Option (Setting κ))) (disk : Disk) (x : κ) (hu : u.Complete) :
    ∀ e, (walkPrime P (.using u) settings disk x).verdict = .unbuilt e → (∃ o, e = .option o) ∨ ∃ f, e = .filter f := by
  intro e he
  have hv := (validate_none u).2 hu
  have hrest : ∀ o e, ((buildRest P u.sub none o).navigate (u.handler.getD (fun k _ => (k, .ok none))) disk u.tree x).verdict
      = .unbuilt e → ∃ fe, e = .filter fe := by
    intro o e h
    unfold buildRest at h
    rw [if_neg hu.2.1] at h
    revert h
    split
    · intro h; simp only [Built.navigate, Verdict.unbuilt.injEq] at h; exact ⟨_, h.symm⟩
    · intro h; simp [Built.navigate] at h
    · split
      · intro h; simp only [Built.navigate, Verdict.unbuilt.injEq] at h; exact ⟨_, h.symm⟩
      · intro h; simp [Built.navigate] at h
      · intro h
        simp only [Built.navigate] at h
        split at h <;> simp at h
  simp only [walkPrime, buildPrimary] at he
  rcases hpp : primaryPlatform P (.using u) settings with ⟨o, _ | e'⟩
  · simp only [hpp] at he
    exact .inr (hrest _ _ he)
  · simp only [hpp, Built.navigate, Verdict.unbuilt.injEq] at he
    subst he
    simp only [primaryPlatform, hv] at hpp
    cases ho : u.o with
    | some o => simp [ho] at hpp
    | none =>
      simp only [ho, Prod.mk.injEq] at hpp
      cases hs : (getOptions P settings).2 with
      | none => simp [hs] at hpp
      | some e =>
        simp only [hs, Option.map_some, Option.some.injEq] at hpp
        exact .inl ⟨e, hpp.2.symm⟩

/-- **C60** (partial, see `C60_pool_unrecognised`) The error of a primary session tells what was wrong with the facade, exactly;
whatever the settings and the handler, it never pretends to come from a resume. -/
theorem C60_prime_partial (P : Platform κ) (facade : Facade κ) (settings : List (Option (Setting κ))) (disk : Disk) (x : κ) :
    let rep := walkPrime P facade settings disk x
    (rep.Says .wrongPrimaryFacade ↔ ∃ r, facade = .relic r) ∧
    (rep.Says .usageMissingTreePath ↔ ∃ u, facade = .using u ∧ u.tree = []) ∧
    (rep.Says .usageMissingSubscription ↔ ∃ u, facade = .using u ∧ u.tree ≠ [] ∧ u.sub = .undefined) ∧
    (rep.Says .usageMissingHandler ↔ ∃ u, facade = .using u ∧ u.tree ≠ [] ∧ u.sub ≠ .undefined ∧ u.handler = none) ∧
    ¬ rep.Says .wrongResumeFacade ∧ ¬ rep.Says .resumeFsMismatch ∧ ¬ rep.Says .nilForest ∧ ¬ rep.Says .unEqualConversion ∧
    ¬ rep.Says .usageMissingRestorePath := by
  intro rep
  cases facade with
  | relic r =>
    have h := (C29_refused_partial P ⟨[], .undefined, none, none⟩ settings disk x).2.2.2 r
    have hr : rep.Nothing .wrongPrimaryFacade x := h
    simp (decide := true) [hr.says, BuildErr.go, GoErr.is]
  | «using» u =>
    obtain ⟨h1, h2, h3, -⟩ := C29_refused_partial P u settings disk x
    by_cases ht : u.tree = []
    · have hr : rep.Nothing _ x := h1 ht
      simp (decide := true) [hr.says, BuildErr.go, GoErr.is, ht]
    by_cases hs : u.sub = .undefined
    · have hr : rep.Nothing _ x := h2 ht hs
      simp (decide := true) [hr.says, BuildErr.go, GoErr.is, ht, hs]
    by_cases hh : u.handler = none
    · have hr : rep.Nothing _ x := h3 ht hs hh
      simp (decide := true) [hr.says, BuildErr.go, GoErr.is, ht, hs, hh]
    have hacc := accepted_errors P u settings disk x ⟨ht, hs, by cases hu : u.handler <;> simp_all⟩
    have hno : ∀ s : Sentinel, s.outer = false → (∀ f : FilterErr, f.go.is s = false) → ¬ rep.Says s := by
      intro s hs hf
      rw [says_iff _ _ hs]
      rintro ⟨b, hb1, hb2⟩
      rcases hacc b hb1 with ⟨o, rfl⟩ | ⟨f, rfl⟩
      · rw [show (BuildErr.option o).go = o.go from rfl, go_not o s hs] at hb2; cases hb2
      · rw [show (BuildErr.filter f).go = f.go from rfl, hf f] at hb2; cases hb2
    have hf : ∀ s ∈ [Sentinel.wrongPrimaryFacade, .usageMissingTreePath, .usageMissingSubscription, .usageMissingHandler, .wrongResumeFacade,
        .resumeFsMismatch, .nilForest, .unEqualConversion, .usageMissingRestorePath], ¬ rep.Says s := by
      intro s hs
      apply hno
      · revert s; decide
      · intro f
        simp only [List.mem_cons, List.not_mem_nil, or_false] at hs
        rcases hs with rfl | rfl | rfl | rfl | rfl | rfl | rfl | rfl | rfl <;> cases f <;> first | rfl | exact go_not _ _ rfl
    simp only [List.forall_mem_cons] at hf
    obtain ⟨f1, f2, f3, f4, f5, f6, f7, f8, f9, -⟩ := hf
    simp only [f1, f2, f3, f4, f5, f6, f7, f8, f9, not_false_eq_true, and_true, false_iff, Facade.using.injEq, exists_eq_left']
    exact ⟨by simp, ht, fun h => hs h.2, fun h => hh h.2.2⟩

/-! ### Filter definitions -/

theorem createPrimary_keeps {E : Engine} {o o1 : Options κ} {p} (h : createPrimary E o = .ok (p, o1)) :
    o1.hibernate = o.hibernate ∧ o1.filter = o.filter := by
  unfold createPrimary at h
  split at h
  · split at h <;> cases h
    exact ⟨rfl, rfl⟩
  · split at h
    · split at h
      · cases h
      · split at h <;> cases h
        exact ⟨rfl, rfl⟩
    · split at h
      · split at h <;> cases h
        exact ⟨rfl, rfl⟩
      · cases h; exact ⟨rfl, rfl⟩

theorem registerFilter_keeps {E : Engine} {o o1 : Options κ} {f} (h : registerFilter E o = .ok (f, o1)) : o1.hibernate = o.hibernate := by
  unfold registerFilter at h
  split at h
  · cases h
  · cases h
  · rename_i p o' hp
    split at h <;> cases h
    exact (createPrimary_keeps hp).1

/-- A session that defines no hibernation says what the filter plugin says. -/
theorem given_says {P : Platform κ} {u : Using κ} {settings o} (hg : Given P u settings o) (disk : Disk) (x : κ) (s : Sentinel)
    (hs : s.outer = false) :
    (walkPrime P (.using u) settings disk x).Says s ↔ ∃ e, registerFilter P.engine o.afterwards = .err e ∧ e.go.is s = true := by
  obtain ⟨h1, h2⟩ := given_verdict hg disk x
  cases hr : registerFilter P.engine o.afterwards with
  | err e => rw [(h1 e hr).says s hs]; simp [BuildErr.go]
  | ok fo =>
    obtain ⟨f, o1⟩ := fo
    have := h2 f o1 hr (registerFilter_keeps hr : o1.hibernate = o.afterwards.hibernate)
    rw [says_iff _ _ hs]
    constructor
    · rintro ⟨b, hb, -⟩; exact absurd hb (this b)
    · rintro ⟨e, he, -⟩; cases he
  | panic =>
    have hb : buildPrimary P (.using u) settings = .crash := by
      rw [buildPrimary_ok P u settings hg.complete (fun _ => by rw [hg.options])]
      simp only [harvested, hg.noOptions, hg.options]
      simp [buildRest, hg.complete.2.1, hr]
    rw [says_iff _ _ hs]
    simp [walkPrime, hb, Built.navigate]

/-- **C60** (partial, see `C60_pool_unrecognised`) A child filter: the error tells which type was given. -/
theorem C60_child_partial (P : Platform κ) (u : Using κ) (settings : List (Option (Setting κ))) (o : Options κ) (disk : Disk) (x : κ)
    (hg : Given P u settings o) (d : ChildDef) (hd : o.filter = { child := some d }) (hp : d.pattern ≠ "") :
    let rep := walkPrime P (.using u) settings disk x
    (rep.Says .filterChildGlobExNotSupported ↔ d.type = .globEx) ∧ (rep.Says .filterCustomNotSupported ↔ d.type = .custom) ∧
    (rep.Says .filterUndefined ↔ d.type = .undefined) := by
  intro rep
  have hf : o.afterwards.filter = { child := some d } := hd
  have hp' : (d.pattern != "") = true := by simp [hp]
  have hr : ∀ e, registerFilter P.engine o.afterwards = .err e ↔ newChild P.engine d = .err e := by
    intro e
    simp only [registerFilter, createPrimary, FilterOptions.nodeActive, hf]
    simp only [Bool.false_eq_true, if_false, Option.isSome_none, createChild, hf, hp', if_true]
    rcases newChild P.engine d with (_ | f) | e | _ <;> simp
  have hsay : ∀ s : Sentinel, s.outer = false → (rep.Says s ↔ ∃ e, newChild P.engine d = .err e ∧ e.go.is s = true) := by
    intro s hs
    rw [given_says hg disk x s hs]
    simp only [hr]
  rw [hsay _ rfl, hsay _ rfl, hsay _ rfl]
  simp only [newChild]
  cases hty : d.type <;> simp [FilterErr.go, GoErr.is]
  cases P.engine.compiles d.pattern <;> simp [GoErr.is]

theorem newSpec_errors {E : Engine} : ∀ base excl pats e, newSpec E base excl pats = .error e → ∃ p, e = .badSubPattern p := by
  intro base excl pats e he
  have hm : ∀ (g : String → Except FilterErr PatternSpec), (∀ a e, g a = .error e → ∃ p, e = .badSubPattern p) →
      ∀ l e, mapE g l = .error e → ∃ p, e = .badSubPattern p := by
    intro g hg l
    induction l with
    | nil => simp [mapE]
    | cons a as ih =>
      intro e he
      simp only [mapE] at he
      cases hga : g a with
      | error e' => simp only [hga, Except.error.injEq] at he; subst he; exact hg a _ hga
      | ok b =>
        simp only [hga] at he
        cases hmas : mapE g as with
        | error e' => simp only [hmas, Except.error.injEq] at he; subst he; exact ih _ hmas
        | ok bs => simp [hmas] at he
  unfold newSpec at he
  split at he
  · rename_i e' he'
    cases he
    refine hm _ ?_ _ _ he'
    intro a e h
    unfold parseSpec at h
    split at h
    · cases h; exact ⟨_, rfl⟩
    · cases h
  · cases he

theorem globEx_errors {E : Engine} {d : FilterCore} {e : FilterErr} (hty : d.type = .globEx) (hc : containsChar '|' d.pattern = true)
    (h : buildNative E d = .err e) : ∃ p, e = .badSubPattern p := by
  simp only [buildNative, hty, splitGlobExPattern, hc, Bool.not_true, Bool.false_eq_true, if_false] at h
  rcases hs : splitStr '|' d.pattern with _ | ⟨a, _ | ⟨b, l⟩⟩
  · simp [hs] at h
  · simp [hs] at h
  · simp only [hs] at h
    split at h
    · rename_i e' he
      cases h
      exact newSpec_errors _ _ _ _ he
    · cases h

/-- **C60** (partial, see `C60_pool_unrecognised`) A node filter: the error tells that the type, or the separator of an extended glob,
is missing. -/
theorem C60_node_partial (P : Platform κ) (u : Using κ) (settings : List (Option (Setting κ))) (o : Options κ) (disk : Disk) (x : κ)
    (hg : Given P u settings o) (d : FilterCore) (hd : o.filter = { node := some (.plain d) }) (hp : d.pattern ≠ "") :
    let rep := walkPrime P (.using u) settings disk x
    (rep.Says .filterMissingType ↔ d.type = .undefined) ∧
    (rep.Says .extGlobMissingSeparator ↔ d.type = .globEx ∧ '|' ∉ d.pattern.toList) := by
  intro rep
  have hf : o.afterwards.filter = { node := some (.plain d) } := hd
  have hp' : (d.pattern != "") = true := by simp [hp]
  have hr : ∀ e, registerFilter P.engine o.afterwards = .err e ↔ (d.type ≠ .poly ∧ buildNative P.engine d = .err e) := by
    intro e
    by_cases hty : d.type = .poly
    · have hn : newFilter P.engine (.plain d) { node := some (.plain d) } = .panic := by
        simp [newFilter, buildPoly, FilterDef.core, hty, FilterDef.poly]
      simp [registerFilter, createPrimary, FilterOptions.nodeActive, hf, FilterDef.core, hp', hn, hty]
    · have hn : newFilter P.engine (.plain d) { node := some (.plain d) } = buildNative P.engine d := by
        simp only [newFilter, buildPoly, FilterDef.core, hty, ne_eq, not_false_eq_true, if_true]
      simp only [registerFilter, createPrimary, FilterOptions.nodeActive, hf, FilterDef.core, hp', Bool.true_or, if_true, hn]
      rcases buildNative P.engine d with (_ | f) | e | _ <;> simp [createChild, hf, hty]
  have hsay : ∀ s : Sentinel, s.outer = false →
      (rep.Says s ↔ ∃ e, (d.type ≠ .poly ∧ buildNative P.engine d = .err e) ∧ e.go.is s = true) := by
    intro s hs
    rw [given_says hg disk x s hs]
    simp only [hr]
  have hc : containsChar '|' d.pattern = true ↔ '|' ∈ d.pattern.toList := by simp [containsChar]
  rw [hsay _ rfl, hsay _ rfl]
  by_cases hge : d.type = .globEx ∧ containsChar '|' d.pattern = true
  · have hno : ∀ s : Sentinel, ¬ ∃ e, (d.type ≠ .poly ∧ buildNative P.engine d = .err e) ∧ e.go.is s = true := by
      rintro s ⟨e, ⟨-, he⟩, h⟩
      obtain ⟨p, rfl⟩ := globEx_errors hge.1 hge.2 he
      simp [FilterErr.go, GoErr.is] at h
    refine ⟨⟨fun h => absurd h (hno _), fun h => ?_⟩, ⟨fun h => absurd h (hno _), fun h => absurd (hc.1 hge.2) h.2⟩⟩
    rw [hge.1] at h; cases h
  · simp only [buildNative]
    cases hty : d.type with
    | undefined => simp [FilterErr.go, GoErr.is]
    | custom => simp
    | poly => simp
    | glob => simp
    | regex => cases P.engine.compiles d.pattern <;> simp [FilterErr.go, GoErr.is]
    | globEx =>
      have hf : containsChar '|' d.pattern = false := by simpa [hty] using hge
      simp [splitGlobExPattern, hf, ← hc, FilterErr.go, GoErr.is, newInvalidExtGlobFilterMissingSeparator]

/-- **C60** (partial, see `C60_pool_unrecognised`) A sample filter: the error tells which number is missing, and if both are there, that
the type or the custom filter is. -/
theorem C60_sample_partial (P : Platform κ) (u : Using κ) (settings : List (Option (Setting κ))) (o : Options κ) (disk : Disk) (x : κ)
    (hg : Given P u settings o) (d : SampleDef) (hd : o.filter = { sample := some d }) :
    let rep := walkPrime P (.using u) settings disk x
    let noFiles := d.scope.names false = true ∧ o.sampling.files = 0
    let noDirs := d.scope.names true = true ∧ o.sampling.dirs = 0
    (rep.Says .missingFiles ↔ noFiles) ∧ (rep.Says .missingDirectories ↔ ¬ noFiles ∧ noDirs) ∧
    (rep.Says .filterMissingType ↔ ¬ noFiles ∧ ¬ noDirs ∧ d.type = .undefined) ∧
    (rep.Says .filterIsNil ↔ ¬ noFiles ∧ ¬ noDirs ∧ d.type = .custom ∧ d.custom.isNone = true) := by
  intro rep noFiles noDirs
  have hf : o.afterwards.filter = { sample := some d } := hd
  have hs : o.afterwards.sampling = o.sampling := rfl
  have hr : ∀ e, registerFilter P.engine o.afterwards = .err e ↔ newSample P.engine (some d) o.sampling.files o.sampling.dirs = .err e := by
    intro e
    simp only [registerFilter, createPrimary, FilterOptions.nodeActive, hf, hs]
    rcases newSample P.engine (some d) o.sampling.files o.sampling.dirs with (_ | f) | e | _ <;> simp [createChild]
  have hsay : ∀ s : Sentinel, s.outer = false →
      (rep.Says s ↔ ∃ e, newSample P.engine (some d) o.sampling.files o.sampling.dirs = .err e ∧ e.go.is s = true) := by
    intro s hs
    rw [given_says hg disk x s hs]
    simp only [hr]
  rw [hsay _ rfl, hsay _ rfl, hsay _ rfl, hsay _ rfl]
  simp only [newSample, isFile_names, isDirectory_names, scrub_names]
  have e1 : (d.scope.names false && o.sampling.files == 0) = true ↔ noFiles := by simp [noFiles]
  have e2 : (d.scope.names true && o.sampling.dirs == 0) = true ↔ noDirs := by simp [noDirs]
  by_cases q1 : noFiles
  · rw [if_pos (e1.2 q1)]; simp [q1, FilterErr.go, GoErr.is]
  · rw [if_neg (fun h => q1 (e1.1 h))]
    by_cases q2 : noDirs
    · rw [if_pos (e2.2 q2)]; simp [q1, q2, FilterErr.go, GoErr.is]
    · rw [if_neg (fun h => q2 (e2.1 h))]
      simp only [q1, q2, not_false_eq_true, true_and, and_false]
      cases hty : d.type with
      | undefined => simp [FilterErr.go, GoErr.is]
      | globEx => simp
      | poly => simp
      | custom =>
        rcases d.custom with _ | c
        · simp [FilterErr.go, GoErr.is]
        · rcases hv : c.validate with _ | e
          · simp [hv]
          simp [hv, FilterErr.go, go_not e _ (rfl : Sentinel.outer .missingFiles = false),
            go_not e _ (rfl : Sentinel.outer .missingDirectories = false), go_not e _ (rfl : Sentinel.outer .filterMissingType = false),
            go_not e _ (rfl : Sentinel.outer .filterIsNil = false)]
      | glob => simp
      | regex => cases hc : P.engine.compiles d.pattern <;> simp [FilterErr.go, GoErr.is]

theorem native_not_poly {E : Engine} {d : FilterCore} {e : FilterErr} (h : buildNative E d = .err e) :
    e.go.is .polyFilterIsInvalid = false := by
  by_cases hty : d.type = .globEx
  · cases hc : containsChar '|' d.pattern with
    | true => obtain ⟨p, rfl⟩ := globEx_errors hty hc h; rfl
    | false =>
      simp only [buildNative, hty, splitGlobExPattern, hc, Bool.not_false, if_true, Made.err.injEq] at h
      subst h; rfl
  · simp only [buildNative] at h
    cases hty' : d.type <;> simp only [hty', reduceCtorEq] at h
    · cases h; rfl
    · exact absurd hty' hty
    · split at h <;> cases h
      rfl

/-- **C60** (partial, see `C60_pool_unrecognised`) A poly filter one half of which is a poly filter again: the error says so, exactly,
provided the other half is a glob (which is always well formed). -/
theorem C60_poly_partial (P : Platform κ) (u : Using κ) (settings : List (Option (Setting κ))) (o : Options κ) (disk : Disk) (x : κ)
    (hg : Given P u settings o) (d file dir : FilterCore) (hd : o.filter = { node := some (.both d (.plain file) (.plain dir)) }) (ht : d.type = .poly)
    (hglob : file.type = .glob ∨ dir.type = .glob) :
    (walkPrime P (.using u) settings disk x).Says .polyFilterIsInvalid ↔ file.type = .poly ∨ dir.type = .poly := by
  have hf : o.afterwards.filter = { node := some (.both d (.plain file) (.plain dir)) } := hd
  have hr : ∀ e, registerFilter P.engine o.afterwards = .err e ↔
      newFilter P.engine (.both d (.plain file) (.plain dir)) { node := some (.both d (.plain file) (.plain dir)) } = .err e := by
    intro e
    simp only [registerFilter, createPrimary, FilterOptions.nodeActive, hf, FilterDef.poly, Option.isSome_some, Bool.or_true, if_true]
    rcases newFilter P.engine (.both d (.plain file) (.plain dir)) { node := some (.both d (.plain file) (.plain dir)) } with (_ | f) | e | _ <;>
      simp [createChild, hf]
  rw [given_says hg disk x _ rfl]
  simp only [hr, newFilter, buildPoly, FilterDef.core, FilterDef.poly, ht, ne_eq, not_true_eq_false, if_false, Option.bind_some]
  have hcon : ∀ c : FilterCore, ∀ e, buildConstituent P.engine { node := some (.both d (.plain file) (.plain dir)) } c = .err e →
      e.go.is .polyFilterIsInvalid = false := by
    intro c e h
    simp only [buildConstituent] at h
    cases hn : buildNative P.engine c with
    | ok f => cases f <;> simp [hn] at h
    | err e' => simp only [hn, Made.err.injEq] at h; subst h; exact native_not_poly hn
    | panic => simp [hn] at h
  by_cases h1 : file.type = .poly
  · simp [h1, FilterErr.go, GoErr.is]
  · simp only [h1, if_false]
    cases hff : buildConstituent P.engine { node := some (.both d (.plain file) (.plain dir)) } (file.narrow Scope.file Scope.directory) with
    | err e =>
      have := hcon _ _ hff
      rcases hglob with hgl | hgl
      · simp [buildConstituent, buildNative, FilterCore.narrow, hgl] at hff
      · simp [this, h1, hgl]
    | panic =>
      rcases hglob with hgl | hgl
      · simp [buildConstituent, buildNative, FilterCore.narrow, hgl] at hff
      · simp [h1, hgl]
    | ok f =>
      by_cases h2 : dir.type = .poly
      · simp [h2, FilterErr.go, GoErr.is]
      · simp only [h1, h2, or_self, iff_false, if_false]
        rintro ⟨e, he, hs⟩
        cases hfd : buildConstituent P.engine { node := some (.both d (.plain file) (.plain dir)) } (dir.narrow Scope.directory Scope.file) with
        | err e' => simp only [hfd, Made.err.injEq] at he; subst he; rw [hcon _ _ hfd] at hs; cases hs
        | panic => simp [hfd] at he
        | ok g => simp [hfd] at he

/-! ### Resuming -/

theorem resume_says (P : Platform κ) (r : Relic κ) (settings : List (Option (Setting κ))) (files : String → Except Err Json) (disk : Disk)
    (x : κ) (s : Sentinel) (hs : s.outer = false) (hf : ∀ f : FilterErr, f.go.is s = false) :
    (walkResume P (.relic r) settings files disk x).Says s ↔
      (∃ e, unmarshal P (files r.from) = .error e ∧ e.go.is s = true) ∨
      (∃ o v, unmarshal P (files r.from) = .ok (o, v) ∧ (bindOptions o settings).2 = none ∧
        ((r.systems v.active.tree = none ∧ s = .nilForest) ∨
         (∃ t rr, r.systems v.active.tree = some (t, rr) ∧ (t, rr) ≠ (v.traverseRelative, v.resumeRelative) ∧ s = .resumeFsMismatch) ∨
         (r.systems v.active.tree = some (v.traverseRelative, v.resumeRelative) ∧ v.active.sub = .undefined ∧ s = .usageMissingSubscription))) := by
  have hbeq : ∀ t : Sentinel, (t == s) = true ↔ s = t := by intro t; rw [beq_iff_eq]; exact eq_comm
  rw [says_iff _ _ hs]
  simp only [walkResume]
  cases hl : unmarshal P (files r.from) with
  | error e =>
    have : resumePlatform P r settings (files r.from) = .error (.load e) := by simp [resumePlatform, hl]
    simp [this, BuildErr.go]
  | ok p =>
    obtain ⟨o, v⟩ := p
    rcases ho : bindOptions o settings with ⟨o', _ | e⟩
    · rw [platform_loaded hl ho]
      have e1 : (∃ o_1 v_1, Except.ok (o, v) = (Except.ok (o_1, v_1) : Except PersistErr _) ∧ (bindOptions o_1 settings).2 = none ∧
          ((r.systems v_1.active.tree = none ∧ s = .nilForest) ∨
           (∃ t rr, r.systems v_1.active.tree = some (t, rr) ∧ (t, rr) ≠ (v_1.traverseRelative, v_1.resumeRelative) ∧ s = .resumeFsMismatch) ∨
           (r.systems v_1.active.tree = some (v_1.traverseRelative, v_1.resumeRelative) ∧ v_1.active.sub = .undefined ∧
             s = .usageMissingSubscription))) ↔
          ((r.systems v.active.tree = none ∧ s = .nilForest) ∨
           (∃ t rr, r.systems v.active.tree = some (t, rr) ∧ (t, rr) ≠ (v.traverseRelative, v.resumeRelative) ∧ s = .resumeFsMismatch) ∨
           (r.systems v.active.tree = some (v.traverseRelative, v.resumeRelative) ∧ v.active.sub = .undefined ∧
             s = .usageMissingSubscription)) := by
        constructor
        · rintro ⟨o1, v1, h1, -, h3⟩; cases h1; exact h3
        · intro h; exact ⟨o, v, rfl, by rw [ho], h⟩
      rw [e1]
      cases hsys : r.systems v.active.tree with
      | none => simp [BuildErr.go, GoErr.is, hbeq]
      | some q =>
        obtain ⟨t, rr⟩ := q
        by_cases h1 : t = v.traverseRelative
        · by_cases h2 : rr = v.resumeRelative
          · subst h1 h2
            simp only [ne_eq, not_true_eq_false, if_false, reduceCtorEq, false_and, exists_false, false_or, Option.some.injEq, Prod.mk.injEq]
            constructor
            · rintro ⟨b, hb, hb2⟩
              have hh := resume_verdict hb
              by_cases hu : v.active.sub = .undefined
              · simp only [buildRest, hu, if_true, Built.hades.injEq, reduceCtorEq, exists_false, or_false] at hh
                subst hh
                simp only [BuildErr.go, GoErr.is, hbeq] at hb2
                exact .inr ⟨by simp, hu, hb2⟩
              · exfalso
                rcases buildRest_errors hh with rfl | ⟨fe, rfl⟩
                · unfold buildRest at hh
                  rw [if_neg hu] at hh
                  split at hh
                  · simp at hh
                  · simp at hh
                  · split at hh <;> simp at hh
                · rw [show (BuildErr.filter fe).go = fe.go from rfl, hf fe] at hb2; cases hb2
            · rintro (⟨t', rr', h, h', -⟩ | ⟨-, hu, rfl⟩)
              · exact absurd ⟨h.1.symm, h.2.symm⟩ h'
              · exact ⟨.missingSubscription, by simp [buildRest, hu, Built.resume], by decide⟩
          · subst h1
            clear e1
            simp [h2, BuildErr.go, newResumeFsMismatch, GoErr.is, hbeq]
            generalize v.traverseRelative = a at *
            generalize v.resumeRelative = b at *
            cases a <;> cases b <;> cases rr <;> simp_all
        · clear e1
          simp [h1, BuildErr.go, newTraverseFsMismatch, GoErr.is, hbeq]
          generalize v.traverseRelative = a at *
          generalize v.resumeRelative = b at *
          cases a <;> cases b <;> cases rr <;> cases t <;> simp_all
    · have : resumePlatform P r settings (files r.from) = .error (.option e) := by simp [resumePlatform, hl, ho]
      simp only [this, Verdict.unbuilt.injEq]
      constructor
      · rintro ⟨b, rfl, hb⟩
        rw [show (BuildErr.option e).go = e.go from rfl, go_not e s hs] at hb; cases hb
      · rintro (⟨e', h, -⟩ | ⟨o1, v1, h1, h2, -⟩)
        · cases h
        · cases h1; rw [ho] at h2; cases h2

/-- **C60** (partial, see `C60_pool_unrecognised`) The error of a resume tells, exactly: that the facade was not one for a resume; that
the file contradicts itself; that there are no file systems; that they are not those of the saved session; that the saved session
has no subscription. It never claims to be about a tree path, a path to restore from, a handler, or a primary session. -/
theorem C60_resume_partial (P : Platform κ) (facade : Facade κ) (settings : List (Option (Setting κ))) (files : String → Except Err Json)
    (disk : Disk) (x : κ) :
    let rep := walkResume P facade settings files disk x
    let loaded (r : Relic κ) (v : Saved) := ∃ o, unmarshal P (files r.from) = .ok (o, v) ∧ (bindOptions o settings).2 = none
    (rep.Says .wrongResumeFacade ↔ ∃ u, facade = .using u) ∧
    (rep.Says .unEqualConversion ↔ ∃ r f, facade = .relic r ∧ unmarshal P (files r.from) = .error (.unequal f)) ∧
    (rep.Says .nilForest ↔ ∃ r v, facade = .relic r ∧ loaded r v ∧ r.systems v.active.tree = none) ∧
    (rep.Says .resumeFsMismatch ↔ ∃ r v t rr, facade = .relic r ∧ loaded r v ∧ r.systems v.active.tree = some (t, rr) ∧
      (t, rr) ≠ (v.traverseRelative, v.resumeRelative)) ∧
    (rep.Says .usageMissingSubscription ↔ ∃ r v, facade = .relic r ∧ loaded r v ∧
      r.systems v.active.tree = some (v.traverseRelative, v.resumeRelative) ∧ v.active.sub = .undefined) ∧
    ¬ rep.Says .wrongPrimaryFacade ∧ ¬ rep.Says .usageMissingTreePath ∧ ¬ rep.Says .usageMissingHandler ∧
    ¬ rep.Says .usageMissingRestorePath := by
  intro rep loaded
  cases facade with
  | «using» u =>
    have hr : rep.Nothing .wrongResumeFacade x := ⟨rfl, rfl, rfl, rfl⟩
    simp (decide := true) [hr.says, BuildErr.go, GoErr.is]
  | relic r =>
    have hp : ∀ (e : PersistErr) (s : Sentinel), s.outer = false → (e.go.is s = true ↔ s = .unEqualConversion ∧ ∃ f, e = .unequal f) := by
      intro e s hs
      cases e with
      | io e => simp [PersistErr.go, go_not e s hs]
      | «syntax» => simp [PersistErr.go, GoErr.is]
      | unequal f => simp only [PersistErr.go, GoErr.is, beq_iff_eq, PersistErr.unequal.injEq, exists_eq', and_true]; exact eq_comm
    have hno : ∀ s : Sentinel, s.outer = false → (∀ f : FilterErr, f.go.is s = false) → s ≠ .unEqualConversion →
        (rep.Says s ↔ _) := fun s h1 h2 h3 => (resume_says P r settings files disk x s h1 h2).trans
          (or_iff_right (by rintro ⟨e, -, he⟩; exact h3 ((hp e s h1).1 he).1))
    have hun : rep.Says .unEqualConversion ↔ ∃ f, unmarshal P (files r.from) = .error (.unequal f) := by
      refine (resume_says P r settings files disk x _ rfl (by intro f; cases f <;> first | rfl | exact go_not _ _ rfl)).trans ?_
      simp only [reduceCtorEq, and_false, exists_false, or_false, hp _ .unEqualConversion rfl, true_and]
      constructor
      · rintro ⟨e, h, f, rfl⟩; exact ⟨f, h⟩
      · rintro ⟨f, h⟩; exact ⟨_, h, f, rfl⟩
    refine ⟨?_, by simpa using hun, ?_, ?_, ?_, ?_, ?_, ?_, ?_⟩
    all_goals
      rw [hno _ rfl (by intro f; cases f <;> first | rfl | exact go_not _ _ rfl) (by decide)]
      simp only [reduceCtorEq, and_false, exists_false, or_false, false_or, and_true,
        loaded, not_false_eq_true]
    · constructor
      · rintro ⟨o, v, h1, h2, h3⟩; exact ⟨r, v, rfl, ⟨o, h1, h2⟩, h3⟩
      · rintro ⟨_, v, hr, ⟨o, h1, h2⟩, h3⟩; cases hr; exact ⟨o, v, h1, h2, h3⟩
    · constructor
      · rintro ⟨o, v, h1, h2, t, rr, h3⟩; exact ⟨r, v, t, rr, rfl, ⟨o, h1, h2⟩, h3⟩
      · rintro ⟨_, v, t, rr, hr, ⟨o, h1, h2⟩, h3⟩; cases hr; exact ⟨o, v, h1, h2, t, rr, h3⟩
    · constructor
      · rintro ⟨o, v, h1, h2, h3⟩; exact ⟨r, v, rfl, ⟨o, h1, h2⟩, h3⟩
      · rintro ⟨_, v, hr, ⟨o, h1, h2⟩, h3⟩; cases hr; exact ⟨o, v, h1, h2, h3⟩

/-! ### Panics, and worker pools -/

/-- The error of a rescued panic is recognised, with the file's name if it was saved. -/
theorem rescued (r : Rescue) : InTree .panicOccurred r.err.go ∧ (∀ d, r.err.go.destination = some d ↔ r = .saved d) := by
  rw [← C60_is]
  cases r with
  | saved d => simp [Rescue.err, Err.go, newTraversalSaved, GoErr.is, GoErr.destination]
  | failed e => simp [Rescue.err, Err.go, newTraversalNotSaved, GoErr.is, GoErr.destination]

/-- **C60** (partial, see `C60_pool_unrecognised`) A panic below the root: the error says that a panic occurred and holds the name of the file the state
was saved to, exactly if it was saved. -/
theorem C60_panic_partial {P : Platform κ} {u : Using κ} {settings : List (Option (Setting κ))} {disk : Disk} {S : Setup} {o : Options κ}
    {h : κ → Parcel → κ × Reply} {pre : Path} {fs : FS} (hs : Started P u settings disk S o h pre fs) (hsort : SortPermutes (o.nav u.sub))
    (hread : ReadSelects (o.nav u.sub)) (x : κ) (n : Node) (hroot : n.path ≠ u.tree) :
    let rep := walkPrime P (.using u) settings disk x
    (n, .panic) ∈ rep.answers → ∃ k a, rep.Says .panicOccurred ∧
      ∀ d, rep.error.bind GoErr.destination = some d ↔ (o.defects.panic k a).2 = .saved d := by
  intro rep hn
  obtain ⟨before, k, a, -, -, hv, -⟩ := C17_session_partial P u settings disk S o h pre fs hs hsort hread x n hroot hn
  refine ⟨k, a, ⟨_, ?_, (rescued (o.defects.panic k a).2).1⟩, ?_⟩
  · show Report.error (walkPrime P (.using u) settings disk x) = _
    rw [Report.error, hv]; rfl
  · intro d
    show (Report.error (walkPrime P (.using u) settings disk x)).bind _ = _ ↔ _
    rw [Report.error, hv]
    exact (rescued (o.defects.panic k a).2).2 d

/-- **C60, what is false**: a worker pool that cannot be created. Whatever the session, and whatever the pool's error, the error
returned is not recognised as ErrWorkerPoolCreationFailed, although it reads like it. -/
theorem C60_pool_unrecognised (P : Platform κ) (facade : Facade κ) (settings : List (Option (Setting κ))) (pool : Option Err) (disk : Disk) (x : κ) :
    ¬ (runPrime P facade settings pool disk x).report.Says .workerPoolCreationFailed ∧
    (∀ u S o e, facade = .using u → pool = some e → buildPrimary P facade settings = .ready S o →
      (runPrime P facade settings pool disk x).report.error = some (.wrap (.message "failed to create worker pool") e.go)) := by
  constructor
  · rw [says_iff _ _ rfl]
    rintro ⟨b, -, hb⟩
    revert hb
    cases b with
    | option e => simp [BuildErr.go, go_not e .workerPoolCreationFailed rfl]
    | filter e =>
      cases e with
      | client e => simp [BuildErr.go, FilterErr.go, go_not e .workerPoolCreationFailed rfl]
      | _ => simp [BuildErr.go, FilterErr.go, GoErr.is, newInvalidExtGlobFilterMissingSeparator]
    | load e =>
      cases e with
      | io e => simp [BuildErr.go, PersistErr.go, go_not e .workerPoolCreationFailed rfl]
      | «syntax» => simp [BuildErr.go, PersistErr.go, GoErr.is]
      | unequal f => simp [BuildErr.go, PersistErr.go, GoErr.is]
    | pool e => simp [BuildErr.go, GoErr.is, go_not e .workerPoolCreationFailed rfl]
    | _ => simp [BuildErr.go, GoErr.is, newTraverseFsMismatch, newResumeFsMismatch]
  · rintro u S o e rfl rfl hb
    simp [runPrime, hb, Built.launch, Report.error, BuildErr.go]

/-- Sessions whose errors are told apart: facades, filter definitions, resumes, a panic, a pool. -/
example :
    let P := sortPlatform
    let u : Using Nat := toyUsing .universal
    let with_ (f : FilterOptions) := (walkPrime P (.using u) (settingsOf P [some (.filter f none)]) (diskOf [] Demo.fs) 0).error
    let prime (u : Using Nat) := (walkPrime P (.using u) [] (diskOf [] Demo.fs) 0).error
    (walkPrime P (.relic (toyRelic .spawn)) [] toyDiskAll 0).error = some (.known .wrongPrimaryFacade) ∧
    prime { u with tree := [] } = some (.known .usageMissingTreePath) ∧ prime { u with handler := none } = some (.known .usageMissingHandler) ∧
    with_ { child := some { type := .globEx, pattern := "f" } } = some (.known .filterChildGlobExNotSupported) ∧
    with_ { node := some (.plain { type := .globEx, pattern := "f" }) } = some (newInvalidExtGlobFilterMissingSeparator "f") ∧
    with_ { node := some (.plain { type := .regex, pattern := "(" }) } = some (.foreign 1) ∧
    with_ { node := some (.both { type := .poly } (.plain { type := .glob, pattern := "f" }) (.plain { type := .poly, pattern := "f" })) } =
      some (.known .polyFilterIsInvalid) ∧
    with_ { sample := some { type := .glob, pattern := "f", scope := Scope.directory } } = some (.known .missingDirectories) ∧
    (walkResume toyPlatform (.relic (toyRelic .spawn)) [] (toyFiles { toyStopped with traverseRelative := true }) toyDiskAll 0).error
      = some newTraverseFsMismatch ∧
    (walkResume toyPlatform (.relic { toyRelic .spawn with forest := some (fun _ => none) }) [] (toyFiles toyStopped) toyDiskAll 0).error
      = some (.known .nilForest) ∧
    (prime { u with handler := some (fun k p => (k, Demo.at_ ["r", "g"] .panic p.node.path)) }).any (GoErr.is .panicOccurred) = true ∧
    (runPrime P (.using u) [] (some (.code 7)) (diskOf [] Demo.fs) 0).report.error
      = some (.wrap (.message "failed to create worker pool") (.foreign 7)) := by
  and_intros <;> decide +kernel

/-- **C29** (the Validate method of resume facades, which the library does not call: `C29_relic_unchecked`) It accepts a facade exactly when
restore path, strategy and handler are given, and names a missing restore path first and a missing handler last. **Partial**: for a missing
strategy it names the subscription, which is not part of such a facade. -/
theorem C29_relic_validate_partial (r : Relic κ) :
    (r.validate = none ↔ r.from ≠ "" ∧ r.strategy ≠ .undefined ∧ r.handler ≠ none) ∧
    (r.validate = some .usageMissingRestorePath ↔ r.from = "") ∧
    (r.validate = some .usageMissingSubscription ↔ r.from ≠ "" ∧ r.strategy = .undefined) ∧
    (r.validate = some .usageMissingHandler ↔ r.from ≠ "" ∧ r.strategy ≠ .undefined ∧ r.handler = none) := by
  unfold Relic.validate
  by_cases h1 : r.from = "" <;> by_cases h2 : r.strategy = .undefined <;> cases h3 : r.handler <;> simp [h1, h2]

example : [Relic.validate (κ := Nat) {}, Relic.validate (κ := Nat) { «from» := "f" }, Relic.validate (κ := Nat) { «from» := "f", strategy := .spawn },
    Relic.validate (κ := Nat) { «from» := "f", strategy := .spawn, handler := some (fun k _ => (k, .ok none)) }] =
    [some .usageMissingRestorePath, some .usageMissingSubscription, some .usageMissingHandler, none] := by decide +kernel

end Traverse
