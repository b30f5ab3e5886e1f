import Verif.Proofs.Persist
import Verif.Props.Session
/-
C44: what is saved is loaded. C45: the comparison made on the way.
-/
namespace Traverse
variable {κ : Type}

/-! ### Specification: when options and persisted options agree -/

/-- Agreement of two filter definitions, field by field. -/
structure SameCore (c : FilterCore) (j : JFilterCore) : Prop where
  type : c.type = j.type
  description : c.description = j.description
  pattern : c.pattern = j.pattern
  scope : c.scope = j.scope
  negate : c.negate = j.negate
  ifNotApplicable : c.ifNotApplicable = j.ifNotApplicable

/-- Agreement of two filter definitions, the constituents of a poly filter included. -/
inductive SameDef : FilterDef → JFilterDef → Prop where
  | plain {c j} : SameCore c j → SameDef (.plain c) (.plain j)
  | both {c f d j jf jd} : SameCore c j → SameDef f jf → SameDef d jd → SameDef (.both c f d) (.both j jf jd)

/-- Agreement of two things of which either may be missing: both are, or both are there and agree. -/
inductive Both {α β : Type} (R : α → β → Prop) : Option α → Option β → Prop where
  | none : Both R none none
  | some {a b} : R a b → Both R (some a) (some b)

structure SameChild (d : ChildDef) (j : JChildDef) : Prop where
  type : d.type = j.type
  description : d.description = j.description
  pattern : d.pattern = j.pattern
  negate : d.negate = j.negate

structure SameSample (d : SampleDef) (j : JSampleDef) : Prop where
  type : d.type = j.type
  description : d.description = j.description
  pattern : d.pattern = j.pattern
  scope : d.scope = j.scope
  negate : d.negate = j.negate
  poly : Both (fun (a : FilterDef × FilterDef) (b : JFilterDef × JFilterDef) => SameDef a.1 b.1 ∧ SameDef a.2 b.2) d.poly j.poly

/-- Agreement on every persisted field. -/
structure Agree (o : Options κ) (j : JOptions) : Prop where
  keepTrailingSep : o.behaviours.keepTrailingSep = j.keepTrailingSep
  isCaseSensitive : o.behaviours.isCaseSensitive = j.isCaseSensitive
  sortFilesFirst : o.behaviours.sortFilesFirst = j.sortFilesFirst
  depth : o.behaviours.cascade.depth = j.depth
  noRecurse : o.behaviours.cascade.noRecurse = j.noRecurse
  sampleType : o.sampling.type = j.sampleType
  inReverse : o.sampling.inReverse = j.inReverse
  files : o.sampling.files = j.files
  dirs : o.sampling.dirs = j.dirs
  node : Both SameDef o.filter.node j.node
  child : Both SameChild o.filter.child j.child
  sample : Both SameSample o.filter.sample j.sample
  wakeAt : Both SameDef o.hibernate.wakeAt j.wakeAt
  sleepAt : Both SameDef o.hibernate.sleepAt j.sleepAt
  inclusiveWake : o.hibernate.inclusiveWake = j.inclusiveWake
  inclusiveSleep : o.hibernate.inclusiveSleep = j.inclusiveSleep
  now : o.concurrency.now = j.now

/-- Two definitions are of the same shape: wherever one has a Poly so has the other. -/
inductive Shape : FilterDef → JFilterDef → Prop where
  | plain (c j) : Shape (.plain c) (.plain j)
  | both {f jf d jd} (c j) : Shape f jf → Shape d jd → Shape (.both c f d) (.both j jf jd)

/-- The same for whole options, where both have the definition in question. -/
structure Aligned (o : Options κ) (j : JOptions) : Prop where
  node : ∀ d jd, o.filter.node = some d → j.node = some jd → Shape d jd
  wakeAt : ∀ d jd, o.hibernate.wakeAt = some d → j.wakeAt = some jd → Shape d jd
  sleepAt : ∀ d jd, o.hibernate.sleepAt = some d → j.sleepAt = some jd → Shape d jd
  sample : ∀ d jd, o.filter.sample = some d → j.sample = some jd →
    Both (fun (a : FilterDef × FilterDef) (b : JFilterDef × JFilterDef) => Shape a.1 b.1 ∧ Shape a.2 b.2) d.poly jd.poly

theorem check_none (b : Bool) (s : String) (r : Option String) : check b s r = none ↔ b = true ∧ r = none := by
  cases b <;> simp [check]
theorem andThen_none (e r : Option String) : andThen e r = none ↔ e = none ∧ r = none := by
  cases e <;> simp [andThen]

theorem equalCore_none (c : FilterCore) (j : JFilterCore) : equalDef.equalCore c j = none ↔ SameCore c j := by
  simp only [equalDef.equalCore, check_none, beq_iff_eq]
  exact ⟨fun ⟨a, b, c, d, e, f, _⟩ => ⟨a, b, c, d, e, f⟩, fun ⟨a, b, c, d, e, f⟩ => ⟨a, b, c, d, e, f, trivial⟩⟩

theorem equalDef_of_same {d : FilterDef} {j : JFilterDef} (h : SameDef d j) : equalDef d j = none := by
  induction h with
  | plain h => exact (equalCore_none _ _).2 h
  | both h _ _ ih1 ih2 => simp [equalDef, (equalCore_none _ _).2 h, ih1, ih2]

theorem same_of_equalDef {d : FilterDef} {j : JFilterDef} (hs : Shape d j) (h : equalDef d j = none) : SameDef d j := by
  induction hs with
  | plain c j => exact .plain ((equalCore_none _ _).1 h)
  | @both f jf d jd c j _ _ ih1 ih2 =>
    simp only [equalDef] at h
    cases h1 : equalDef.equalCore c j with
    | some e => simp [h1] at h
    | none =>
      cases h2 : equalDef f jf with
      | some e => simp [h1, h2] at h
      | none =>
        simp only [h1, h2] at h
        exact .both ((equalCore_none _ _).1 h1) (ih1 h2) (ih2 h)

theorem same_shape {d : FilterDef} {j : JFilterDef} (h : SameDef d j) : Shape d j := by
  induction h with
  | plain h => exact .plain _ _
  | both h _ _ ih1 ih2 => exact .both _ _ ih1 ih2

theorem equalFilterDef_iff {d : Option FilterDef} {j : Option JFilterDef} (hs : ∀ x y, d = some x → j = some y → Shape x y) :
    equalFilterDef d j = none ↔ Both SameDef d j := by
  cases d <;> cases j
  · exact ⟨fun _ => .none, fun _ => rfl⟩
  · exact ⟨fun h => by simp [equalFilterDef] at h, fun h => by cases h⟩
  · exact ⟨fun h => by simp [equalFilterDef] at h, fun h => by cases h⟩
  · exact ⟨fun h => .some (same_of_equalDef (hs _ _ rfl rfl) h), fun h => by cases h with | some h => exact equalDef_of_same h⟩

theorem equalChildDef_iff (d : Option ChildDef) (j : Option JChildDef) : equalChildDef d j = none ↔ Both SameChild d j := by
  cases d <;> cases j
  · exact ⟨fun _ => .none, fun _ => rfl⟩
  · exact ⟨fun h => by simp [equalChildDef] at h, fun h => by cases h⟩
  · exact ⟨fun h => by simp [equalChildDef] at h, fun h => by cases h⟩
  · simp only [equalChildDef, check_none, beq_iff_eq]
    exact ⟨fun ⟨a, b, c, d, _⟩ => .some ⟨a, b, c, d⟩, fun h => by cases h with | some h => exact ⟨h.1, h.2, h.3, h.4, trivial⟩⟩

theorem equalPoly_iff {p : Option (FilterDef × FilterDef)} {q : Option (JFilterDef × JFilterDef)}
    (hs : Both (fun (a : FilterDef × FilterDef) (b : JFilterDef × JFilterDef) => Shape a.1 b.1 ∧ Shape a.2 b.2) p q) :
    equalPoly p q = none ↔ Both (fun a b => SameDef a.1 b.1 ∧ SameDef a.2 b.2) p q := by
  cases hs with
  | none => exact ⟨fun _ => .none, fun _ => rfl⟩
  | @some a b h =>
    obtain ⟨f, d⟩ := a
    obtain ⟨jf, jd⟩ := b
    constructor
    · intro he
      simp only [equalPoly] at he
      cases h2 : equalDef f jf with
      | some e => simp [h2] at he
      | none => simp only [h2] at he; exact .some ⟨same_of_equalDef h.1 h2, same_of_equalDef h.2 he⟩
    · intro he
      cases he with
      | some he => simp [equalPoly, equalDef_of_same he.1, equalDef_of_same he.2]

theorem equalSampleDef_iff {d : Option SampleDef} {j : Option JSampleDef}
    (hs : ∀ x y, d = some x → j = some y →
      Both (fun (a : FilterDef × FilterDef) (b : JFilterDef × JFilterDef) => Shape a.1 b.1 ∧ Shape a.2 b.2) x.poly y.poly) :
    equalSampleDef d j = none ↔ Both SameSample d j := by
  cases d <;> cases j
  · exact ⟨fun _ => .none, fun _ => rfl⟩
  · exact ⟨fun h => by simp [equalSampleDef] at h, fun h => by cases h⟩
  · exact ⟨fun h => by simp [equalSampleDef] at h, fun h => by cases h⟩
  · simp only [equalSampleDef, check_none, beq_iff_eq, equalPoly_iff (hs _ _ rfl rfl)]
    exact ⟨fun ⟨a, b, c, d, e, f⟩ => .some ⟨a, b, c, d, e, f⟩,
      fun h => by cases h with | some h => exact ⟨h.1, h.2, h.3, h.4, h.5, h.6⟩⟩

/-- Agreement brings the shapes into line. -/
theorem agree_aligned {o : Options κ} {j : JOptions} (h : Agree o j) : Aligned o j where
  node d jd h1 h2 := by
    have := h.node; rw [h1, h2] at this; cases this with | some h => exact same_shape h
  wakeAt d jd h1 h2 := by
    have := h.wakeAt; rw [h1, h2] at this; cases this with | some h => exact same_shape h
  sleepAt d jd h1 h2 := by
    have := h.sleepAt; rw [h1, h2] at this; cases this with | some h => exact same_shape h
  sample d jd h1 h2 := by
    have := h.sample; rw [h1, h2] at this
    cases this with
    | some h =>
      have := h.poly
      generalize d.poly = p at this ⊢
      generalize jd.poly = q at this ⊢
      cases this with
      | none => exact .none
      | some h => exact .some ⟨same_shape h.1, same_shape h.2⟩

theorem equalOptions_iff {o : Options κ} {j : JOptions} (ha : Aligned o j) : equalOptions o j = none ↔ Agree o j := by
  simp only [equalOptions, check_none, andThen_none, beq_iff_eq, equalFilterDef_iff ha.node, equalChildDef_iff,
    equalSampleDef_iff ha.sample, equalFilterDef_iff ha.wakeAt, equalFilterDef_iff ha.sleepAt]
  constructor
  · rintro ⟨h1, h2, h3, h4, h5, h6, h7, h8, h9, h10, h11, h12, h13, h14, h15, h16, h17, _⟩
    exact ⟨h1, h2, h3, h4, h5, h6, h7, h8, h9, h10, h11, h12, h13, h14, h15, h16, h17⟩
  · rintro ⟨h1, h2, h3, h4, h5, h6, h7, h8, h9, h10, h11, h12, h13, h14, h15, h16, h17⟩
    exact ⟨h1, h2, h3, h4, h5, h6, h7, h8, h9, h10, h11, h12, h13, h14, h15, h16, h17, trivial⟩

/-- **C45** The full claim would be `comparisonEquals (some o) (some j) = none ↔ Agree o j`, for all options and persisted
options. Options that agree are never reported as different; and whatever differs is reported, except where one has a Poly
and the other has none. Missing options are always reported. -/
theorem C45_comparison_partial (o : Options κ) (j : JOptions) :
    (Agree o j → comparisonEquals (some o) (some j) = none) ∧
    (Aligned o j → comparisonEquals (some o) (some j) = none → Agree o j) ∧
    (∀ x, comparisonEquals (none : Option (Options κ)) x ≠ none) ∧ comparisonEquals (some o) none ≠ none :=
  ⟨fun h => (equalOptions_iff (agree_aligned h)).2 h, fun ha h => (equalOptions_iff ha).1 h,
    fun _ => by simp [comparisonEquals], by simp [comparisonEquals]⟩

/-- **C45 is false** of the code without the proviso: a definition with a poly filter and one without are equal. -/
theorem C45_poly_unnoticed (P : Platform κ) (c : FilterCore) (f d : FilterDef) :
    let o : Options κ := { defaultOptions P with filter := { node := some (.both c f d) } }
    let j : JOptions := { toJSON o with node := some (.plain c.toJ) }
    comparisonEquals (some o) (some j) = none ∧ ¬Agree o j := by
  intro o j
  constructor
  · have : equalDef (.both c f d) (.plain c.toJ) = none := by
      show equalDef.equalCore c c.toJ = none
      exact (equalCore_none _ _).2 ⟨rfl, rfl, rfl, rfl, rfl, rfl⟩
    simp only [comparisonEquals, equalOptions, check_none, andThen_none]
    simp [o, j, toJSON, defaultOptions, equalFilterDef, equalChildDef, equalSampleDef, this]
  · intro h
    have := h.node
    simp only [o, j] at this
    cases this with
    | some h => cases h

/-! ### C44 -/

theorem toJ_same (d : FilterDef) : SameDef d d.toJ := by
  induction d with
  | plain c => exact .plain ⟨rfl, rfl, rfl, rfl, rfl, rfl⟩
  | both c f d ihf ihd => exact .both ⟨rfl, rfl, rfl, rfl, rfl, rfl⟩ ihf ihd

theorem toJ_both (d : Option FilterDef) : Both SameDef d (d.map FilterDef.toJ) := by
  cases d with
  | none => exact .none
  | some d => exact .some (toJ_same d)

/-- The check made when saving never fails. -/
theorem toJSON_equal (o : Options κ) : equalOptions o (toJSON o) = none := by
  have hd : ∀ d : Option FilterDef, equalFilterDef d (d.map FilterDef.toJ) = none := by
    intro d
    cases d with
    | none => rfl
    | some d => exact equalDef_of_same (toJ_same d)
  simp only [equalOptions, check_none, andThen_none]
  refine ⟨by simp [toJSON], by simp [toJSON], by simp [toJSON], by simp [toJSON], by simp [toJSON], by simp [toJSON],
    by simp [toJSON], by simp [toJSON], by simp [toJSON], hd _, ?_, ?_, hd _, hd _, by simp [toJSON], by simp [toJSON],
    by simp [toJSON], trivial⟩
  · simp only [toJSON]
    cases o.filter.child <;> simp [equalChildDef, check]
  · simp only [toJSON]
    cases o.filter.sample with
    | none => rfl
    | some s => cases hp : s.poly <;> simp [equalSampleDef, check, equalPoly, hp]

/-- The check made when loading never fails on what was saved. -/
theorem fromJSON_equal (P : Platform κ) (j : JOptions) : equalOptions (fromJSON P j) j = none := by
  have hd : ∀ d : Option JFilterDef, equalFilterDef (d.map JFilterDef.ofJ) d = none := by
    intro d
    cases d with
    | none => rfl
    | some d =>
      have := equalDef_of_same (toJ_same d.ofJ)
      rw [def_toJ_ofJ] at this
      exact this
  simp only [equalOptions, check_none, andThen_none]
  refine ⟨by simp [fromJSON], by simp [fromJSON], by simp [fromJSON], by simp [fromJSON], by simp [fromJSON], by simp [fromJSON],
    by simp [fromJSON], by simp [fromJSON], by simp [fromJSON], hd _, ?_, ?_, hd _, hd _, by simp [fromJSON], by simp [fromJSON],
    by simp [fromJSON], trivial⟩
  · simp only [fromJSON]
    cases j.child <;> simp [equalChildDef, check]
  · simp only [fromJSON]
    cases j.sample <;> simp [equalSampleDef, check, equalPoly]

/-- Saving and loading, as a whole. -/
theorem roundTrip (P : Platform κ) (o : Options κ) (s : Saved) :
    ∃ doc, marshal o s = .ok doc ∧ unmarshal P (.ok doc) = .ok (fromJSON P (toJSON o), s) := by
  refine ⟨.obj [("Active", s.encode), ("JO", (toJSON o).encode)], ?_, ?_⟩
  · simp [marshal, comparisonEquals, toJSON_equal]
  · simp [unmarshal, decodeSaved_encode, decodeOptions_encode, comparisonEquals, fromJSON_equal]

/-- **C44** For all options and all states: saving succeeds; loading what was saved succeeds, and gives the same state, the
same navigation behaviours, sampling, hibernation and worker count, the same node and child filter, and the same sample
filter but for its Poly and Custom. (The full claim includes those; client code, as in Custom, cannot be persisted.) -/
theorem C44_round_trip_partial (P : Platform κ) (o : Options κ) (s : Saved) :
    ∃ doc o', marshal o s = .ok doc ∧ unmarshal P (.ok doc) = .ok (o', s) ∧
      o'.behaviours = o.behaviours ∧ o'.sampling = o.sampling ∧ o'.hibernate = o.hibernate ∧
      o'.concurrency.now = o.concurrency.now ∧ o'.filter.node = o.filter.node ∧ o'.filter.child = o.filter.child ∧
      o'.filter.sample = o.filter.sample.map (fun d => { d with poly := none, custom := none }) := by
  obtain ⟨doc, h1, h2⟩ := roundTrip P o s
  refine ⟨doc, _, h1, h2, rfl, rfl, ?_, rfl, ?_, ?_, ?_⟩
  · cases hh : o.hibernate with
    | mk w sl iw is =>
      simp only [fromJSON, toJSON, hh, HibernateOptions.mk.injEq]
      cases w <;> cases sl <;> simp
  · cases hn : o.filter.node <;> simp [fromJSON, toJSON, hn]
  · cases hn : o.filter.child <;> simp [fromJSON, toJSON, hn]
  · cases hn : o.filter.sample <;> simp [fromJSON, toJSON, hn]

/-- **C44** If no part of the filter options is client code and there is no sample filter with a Poly, the filter options
are the same as a whole. -/
theorem C44_filters (P : Platform κ) (o : Options κ) (s : Saved) (hc : o.filter.custom = none)
    (hs : ∀ d, o.filter.sample = some d → d.poly = none ∧ d.custom = none) :
    ∃ doc o', marshal o s = .ok doc ∧ unmarshal P (.ok doc) = .ok (o', s) ∧ o'.filter = o.filter := by
  obtain ⟨doc, h1, h2⟩ := roundTrip P o s
  refine ⟨doc, _, h1, h2, ?_⟩
  cases hf : o.filter with
  | mk n c sm cu =>
    rw [hf] at hc hs
    simp only at hc hs
    subst hc
    simp only [fromJSON, toJSON, hf, FilterOptions.mk.injEq]
    refine ⟨by cases n <;> simp, by cases c <;> simp, ?_, trivial⟩
    cases sm with
    | none => rfl
    | some d =>
      obtain ⟨hp, hcu⟩ := hs d rfl
      cases d
      simp_all

/-- **C44 is false** of the code for a sample filter with a Poly: it is lost, and nothing is reported. -/
theorem C44_sample_poly_lost (P : Platform κ) (o : Options κ) (s : Saved) (d : SampleDef) (p)
    (hs : o.filter.sample = some d) (hp : d.poly = some p) :
    ∃ doc o' d', marshal o s = .ok doc ∧ unmarshal P (.ok doc) = .ok (o', s) ∧ o'.filter.sample = some d' ∧ d'.poly = none := by
  obtain ⟨doc, h1, h2⟩ := roundTrip P o s
  refine ⟨doc, _, { d with poly := none, custom := none }, h1, h2, ?_, rfl⟩
  simp [fromJSON, toJSON, hs]

/-- What is not persisted is the default when loaded, whatever it was: hooks, listeners, defect handlers, the queue sizes. -/
theorem C44_not_persisted (P : Platform κ) (o : Options κ) (s : Saved) :
    ∃ doc o', marshal o s = .ok doc ∧ unmarshal P (.ok doc) = .ok (o', s) ∧
      o'.hooks = (defaultOptions P).hooks ∧ o'.events = (defaultOptions P).events ∧ o'.defects = (defaultOptions P).defects ∧
      o'.adminPath = (defaultOptions P).adminPath ∧ o'.concurrency.inputSize = 0 ∧ o'.concurrency.output = {} := by
  obtain ⟨doc, h1, h2⟩ := roundTrip P o s
  exact ⟨doc, _, h1, h2, rfl, rfl, rfl, rfl, rfl, rfl⟩

/-! ### Cases -/

/-- Options with all kinds of things in them, and a state. -/
def toyOptions : Options Nat :=
  { defaultOptions toyPlatform with
    behaviours := { keepTrailingSep := false, isCaseSensitive := true, sortFilesFirst := true, cascade := { depth := 3 } }
    sampling := { type := .slice, inReverse := true, files := 2, dirs := 5 }
    filter := { node := some (.both { type := .poly } (.plain { type := .glob, pattern := "*.flac", scope := Scope.file })
                  (.plain { type := .regex, pattern := "vol", negate := true, scope := Scope.directory }))
                child := some { type := .glob, pattern := "*.txt", negate := true }
                sample := some { type := .glob, pattern := "cover*", scope := Scope.file } }
    hibernate := { wakeAt := some (.plain { type := .glob, pattern := "a", ifNotApplicable := .yes }), inclusiveSleep := true }
    concurrency := { now := 7 } }

def toySaved : Saved where
  active := { tree := ["r"], sub := .universal, hibernation := .retired, currentPath := ["r", "a", "b"], isDir := true, depth := 2,
              metrics := fun k => if k = .filesInvoked then some 4 else if k = .dirsInvoked then some 2 else none }
  traverseRelative := false
  resumeRelative := true

/-- The theorem about whole filter options applies to them. -/
example : toyOptions.filter.custom = none ∧ ∀ d, toyOptions.filter.sample = some d → d.poly = none ∧ d.custom = none := by
  refine ⟨rfl, ?_⟩
  intro d h
  cases h
  exact ⟨rfl, rfl⟩

example :
    (match marshal toyOptions toySaved with
      | .ok doc => match unmarshal toyPlatform (.ok doc) with
        | .ok (o, s) => decide (o.behaviours = toyOptions.behaviours) && decide (o.filter.node = toyOptions.filter.node)
            && decide (o.hibernate = toyOptions.hibernate) && decide (s.active.metrics .filesInvoked = some 4)
        | .error _ => false
      | .error _ => false) = true := by
  decide +kernel

/-- A difference is reported by the name of the field. -/
example : comparisonEquals (some toyOptions) (some { toJSON toyOptions with dirs := 6 }) = some "Directories" ∧
    comparisonEquals (some toyOptions) (some { toJSON toyOptions with wakeAt := none }) = some "[nil jdef]" := by
  decide +kernel

example : Agree toyOptions (toJSON toyOptions) :=
  (equalOptions_iff ⟨by rintro _ _ ⟨⟩ ⟨⟩; exact same_shape (toJ_same _), by rintro _ _ ⟨⟩ ⟨⟩; exact same_shape (toJ_same _),
    by rintro _ _ ⟨⟩, by rintro _ _ ⟨⟩ ⟨⟩; exact .none⟩).1 (toJSON_equal _)

end Traverse
