import Verif.Props.Api3
/-
Which filter definitions make a session unbuildable (C28), said in terms of the definitions.
-/
namespace Traverse
variable {κ : Type}

/-- A complete facade with settings that give the options `o`, which define no hibernation. -/
structure Given (P : Platform κ) (u : Using κ) (settings : List (Option (Setting κ))) (o : Options κ) : Prop where
  noOptions : u.o = none
  complete : u.Complete
  options : getOptions P settings = (o, none)
  wakeAt : o.hibernate.wakeAt = none
  sleepAt : o.hibernate.sleepAt = none

theorem navigate_built {S : Setup} {o : Options κ} (h disk tree) (x : κ) (e : BuildErr) :
    ((Built.ready S o).navigate h disk tree x).verdict ≠ .unbuilt e := by
  simp only [Built.navigate]
  split <;> simp

theorem given_verdict {P : Platform κ} {u : Using κ} {settings o} (hg : Given P u settings o) (disk : Disk) (x : κ) :
    (∀ e, registerFilter P.engine o.afterwards = .err e → (walkPrime P (.using u) settings disk x).Nothing (.filter e) x) ∧
    (∀ f o', registerFilter P.engine o.afterwards = .ok (f, o') → o'.hibernate = o.hibernate →
      ∀ e, (walkPrime P (.using u) settings disk x).verdict ≠ .unbuilt e) := by
  have hb : buildPrimary P (.using u) settings = buildRest P u.sub none o.afterwards := by
    rw [buildPrimary_ok P u settings hg.complete (fun _ => by rw [hg.options])]
    simp only [harvested, hg.noOptions, hg.options]
  refine ⟨fun e he => ?_, fun f o' he ho' e => ?_⟩
  · have : buildPrimary P (.using u) settings = .hades (.filter e) := by
      rw [hb]; simp [buildRest, hg.complete.2.1, he]
    simp only [walkPrime, this]
    exact hades_nothing _ _ disk u.tree x
  · have hi : ∃ hib, initHibernation P.engine o' = .ok hib := by
      simp only [initHibernation, ho', hg.wakeAt, hg.sleepAt, makeTrigger]
      exact ⟨_, rfl⟩
    obtain ⟨hib, hi⟩ := hi
    have : ∃ S o₁, buildPrimary P (.using u) settings = .ready S o₁ := by
      rw [hb]; simp [buildRest, hg.complete.2.1, he, hi]
    obtain ⟨S, o₁, this⟩ := this
    simp only [walkPrime, this]
    exact navigate_built _ _ _ _ _

/-- **C28** A session whose only filter is a child filter (with a pattern, and not of the type Poly, which makes it panic): it is
unbuildable exactly when the type is none of the two types a child filter can have, or the regular expression does not compile. Then
nothing happens. -/
theorem C28_child_definition (P : Platform κ) (u : Using κ) (settings : List (Option (Setting κ))) (o : Options κ) (disk : Disk) (x : κ)
    (hg : Given P u settings o) (d : ChildDef) (hd : o.filter = { child := some d }) (hp : d.pattern ≠ "") (ht : d.type ≠ .poly) :
    let rep := walkPrime P (.using u) settings disk x
    let bad := (d.type ≠ .glob ∧ d.type ≠ .regex) ∨ (d.type = .regex ∧ P.engine.compiles d.pattern = false)
    ((∃ e, rep.verdict = .unbuilt e) ↔ bad) ∧ (bad → ∃ e, rep.Nothing (.filter e) x) := by
  obtain ⟨h1, h2⟩ := given_verdict hg disk x
  intro rep bad
  have hf : o.afterwards.filter = { child := some d } := hd
  have hp' : (d.pattern != "") = true := by simp [hp]
  have hr : ∀ r, newChild P.engine d = r → registerFilter P.engine o.afterwards = match r with
      | .ok (some f) => .ok (⟨none, some f, fun _ => false⟩, o.afterwards)
      | .ok none => .panic
      | .err e => .err e
      | .panic => .panic := by
    intro r hr
    simp only [registerFilter, createPrimary, FilterOptions.nodeActive, hf]
    simp only [Bool.false_eq_true, if_false, Option.isSome_none, createChild, hf, hp', if_true, hr]
    rcases r with (_ | f) | e | _ <;> rfl
  have key : (bad → ∃ e, registerFilter P.engine o.afterwards = .err e) ∧
      (¬ bad → ∃ f, registerFilter P.engine o.afterwards = .ok (f, o.afterwards)) := by
    have hr := hr _ rfl
    rw [hr]
    simp only [newChild, bad]
    cases hty : d.type with
    | undefined => simp
    | globEx => simp
    | custom => simp
    | poly => exact absurd hty ht
    | glob => simp
    | regex => cases hc : P.engine.compiles d.pattern <;> simp
  have hbad : bad → ∃ e, rep.Nothing (.filter e) x := fun hb => (key.1 hb).imp fun e he => h1 e he
  refine ⟨⟨fun ⟨e, he⟩ => Classical.byContradiction fun hb => ?_, fun hb => ?_⟩, hbad⟩
  · obtain ⟨f, hf⟩ := key.2 hb
    exact h2 f _ hf rfl e he
  · obtain ⟨e, he⟩ := hbad hb
    exact ⟨_, he.1⟩

/-- **C28** A session whose only filter is a node filter of one of the types regex and glob, or without a type: it is unbuildable
exactly when there is no type, or the regular expression does not compile. Then nothing happens. -/
theorem C28_node_definition (P : Platform κ) (u : Using κ) (settings : List (Option (Setting κ))) (o : Options κ) (disk : Disk) (x : κ)
    (hg : Given P u settings o) (d : FilterCore) (hd : o.filter = { node := some (.plain d) }) (hp : d.pattern ≠ "")
    (ht : d.type ≠ .poly ∧ d.type ≠ .custom ∧ d.type ≠ .globEx) :
    let rep := walkPrime P (.using u) settings disk x
    let bad := d.type = .undefined ∨ (d.type = .regex ∧ P.engine.compiles d.pattern = false)
    ((∃ e, rep.verdict = .unbuilt e) ↔ bad) ∧ (bad → ∃ e, rep.Nothing (.filter e) x) := by
  obtain ⟨h1, h2⟩ := given_verdict hg disk x
  intro rep bad
  have hf : o.afterwards.filter = { node := some (.plain d) } := hd
  have hp' : (d.pattern != "") = true := by simp [hp]
  have hr : ∀ r, buildNative P.engine d = r → registerFilter P.engine o.afterwards = match r with
      | .ok (some f) => .ok (⟨some (.node (f.predicate P.engine)), none, f.dies P.engine⟩, o.afterwards)
      | .ok none => .panic
      | .err e => .err e
      | .panic => .panic := by
    intro r hr
    have hn : newFilter P.engine (.plain d) { node := some (.plain d) } = r := by
      simp only [newFilter, buildPoly, FilterDef.core, ht.1, ne_eq, not_false_eq_true, if_true, hr]
    simp only [registerFilter, createPrimary, FilterOptions.nodeActive, hf, FilterDef.core, hp', Bool.true_or, if_true, hn]
    rcases r with (_ | f) | e | _ <;> simp [createChild, hf]
  have key : (bad → ∃ e, registerFilter P.engine o.afterwards = .err e) ∧
      (¬ bad → ∃ f, registerFilter P.engine o.afterwards = .ok (f, o.afterwards)) := by
    have hr := hr _ rfl
    rw [hr]
    simp only [buildNative, bad]
    cases hty : d.type with
    | undefined => simp
    | globEx => exact absurd hty ht.2.2
    | custom => exact absurd hty ht.2.1
    | poly => exact absurd hty ht.1
    | glob => simp
    | regex => cases hc : P.engine.compiles d.pattern <;> simp
  have hbad : bad → ∃ e, rep.Nothing (.filter e) x := fun hb => (key.1 hb).imp fun e he => h1 e he
  refine ⟨⟨fun ⟨e, he⟩ => Classical.byContradiction fun hb => ?_, fun hb => ?_⟩, hbad⟩
  · obtain ⟨f, hf⟩ := key.2 hb
    exact h2 f _ hf rfl e he
  · obtain ⟨e, he⟩ := hbad hb
    exact ⟨_, he.1⟩

/-- **C28** A session whose only filter is a sample filter (not of the types GlobEx and Poly, which make it panic): it is unbuildable
exactly when it is for files (directories) and the number of files (directories) to sample is not set, there is no type, the custom
filter is missing or its Validate fails, or the regular expression does not compile. Then nothing happens. -/
theorem C28_sample_definition (P : Platform κ) (u : Using κ) (settings : List (Option (Setting κ))) (o : Options κ) (disk : Disk) (x : κ)
    (hg : Given P u settings o) (d : SampleDef) (hd : o.filter = { sample := some d }) (ht : d.type ≠ .poly ∧ d.type ≠ .globEx) :
    let rep := walkPrime P (.using u) settings disk x
    let bad := (d.scope.names false = true ∧ o.sampling.files = 0) ∨ (d.scope.names true = true ∧ o.sampling.dirs = 0) ∨
      d.type = .undefined ∨ (d.type = .custom ∧ d.custom.isNone = true) ∨
      (d.type = .custom ∧ ∃ c e, d.custom = some c ∧ c.validate = some e) ∨ (d.type = .regex ∧ P.engine.compiles d.pattern = false)
    ((∃ e, rep.verdict = .unbuilt e) ↔ bad) ∧ (bad → ∃ e, rep.Nothing (.filter e) x) := by
  obtain ⟨h1, h2⟩ := given_verdict hg disk x
  intro rep bad
  have hf : o.afterwards.filter = { sample := some d } := hd
  have hs : o.afterwards.sampling = o.sampling := rfl
  have hr : ∀ r, newSample P.engine (some d) o.sampling.files o.sampling.dirs = r →
      (∀ e, r = .err e → registerFilter P.engine o.afterwards = .err e) ∧
      (∀ m, r = .ok (some m) → ∃ o', registerFilter P.engine o.afterwards = .ok (⟨some (.sample m), none, fun _ => false⟩, o') ∧ o'.hibernate = o.hibernate) := by
    intro r hr
    refine ⟨?_, ?_⟩
    · rintro e rfl
      simp only [registerFilter, createPrimary, FilterOptions.nodeActive, hf, hs, hr]
      rfl
    · rintro m rfl
      simp only [registerFilter, createPrimary, FilterOptions.nodeActive, hf, hs, hr]
      exact ⟨_, rfl, rfl⟩
  obtain ⟨r1, r2⟩ := hr _ rfl
  have key : (bad → ∃ e, newSample P.engine (some d) o.sampling.files o.sampling.dirs = .err e) ∧
      (¬ bad → ∃ m, newSample P.engine (some d) o.sampling.files o.sampling.dirs = .ok (some m)) := by
    simp only [newSample, bad, isFile_names, isDirectory_names, scrub_names]
    have e1 : (d.scope.names false && o.sampling.files == 0) = true ↔ d.scope.names false = true ∧ o.sampling.files = 0 := by simp
    have e2 : (d.scope.names true && o.sampling.dirs == 0) = true ↔ d.scope.names true = true ∧ o.sampling.dirs = 0 := by simp
    by_cases q1 : d.scope.names false = true ∧ o.sampling.files = 0
    · rw [if_pos (e1.2 q1)]; simp [q1]
    · rw [if_neg (fun h => q1 (e1.1 h))]
      by_cases q2 : d.scope.names true = true ∧ o.sampling.dirs = 0
      · rw [if_pos (e2.2 q2)]; simp [q2]
      · rw [if_neg (fun h => q2 (e2.1 h))]
        simp only [q1, q2, false_or]
        cases hty : d.type with
        | undefined => simp
        | globEx => exact absurd hty ht.2
        | poly => exact absurd hty ht.1
        | custom =>
          rcases d.custom with _ | c
          · simp
          · rcases hv : c.validate with _ | e <;> simp [hv]
        | glob => simp
        | regex => cases hc : P.engine.compiles d.pattern <;> simp
  have hbad : bad → ∃ e, rep.Nothing (.filter e) x := fun hb => (key.1 hb).imp fun e he => h1 e (r1 e he)
  refine ⟨⟨fun ⟨e, he⟩ => Classical.byContradiction fun hb => ?_, fun hb => ?_⟩, hbad⟩
  · obtain ⟨m, hm⟩ := key.2 hb
    obtain ⟨o', ho', hh⟩ := r2 m hm
    exact h2 _ _ ho' hh e he
  · obtain ⟨e, he⟩ := hbad hb
    exact ⟨_, he.1⟩

/-- **C28** A session with a custom filter, whatever the others but for the child filter: it is unbuildable exactly when the filter's
Validate fails. Then nothing happens, and the error is the one Validate returned. -/
theorem C28_custom_definition (P : Platform κ) (u : Using κ) (settings : List (Option (Setting κ))) (o : Options κ) (disk : Disk) (x : κ)
    (hg : Given P u settings o) (c : CustomFilter) (hc : o.filter.custom = some c) (hch : o.filter.child = none) :
    let rep := walkPrime P (.using u) settings disk x
    ((∃ e, rep.verdict = .unbuilt e) ↔ ∃ e, c.validate = some e) ∧ (∀ e, c.validate = some e → rep.Nothing (.filter (.client e)) x) := by
  obtain ⟨h1, h2⟩ := given_verdict hg disk x
  intro rep
  have hf : o.afterwards.filter = o.filter := rfl
  have hbad : ∀ e, c.validate = some e → rep.Nothing (.filter (.client e)) x := fun e he =>
    h1 _ (by simp only [registerFilter, createPrimary, hf, hc, he])
  refine ⟨⟨fun ⟨e, he⟩ => ?_, fun ⟨e, he⟩ => ⟨_, (hbad e he).1⟩⟩, hbad⟩
  cases hv : c.validate with
  | some e => exact ⟨e, rfl⟩
  | none =>
    exfalso
    exact h2 _ o.afterwards (by simp only [registerFilter, createPrimary, createChild, hf, hc, hv, hch]; rfl) rfl e he

/-- Not vacuous: child, node and sample filters, some unbuildable and some not. -/
example :
    let P := sortPlatform
    let u : Using Nat := toyUsing .universal
    let settings (f : FilterOptions) := settingsOf P [some (.filter f none)]
    let unbuilt (f : FilterOptions) : Bool := match (walkPrime P (.using u) (settings f) (diskOf [] Demo.fs) 0).verdict with
      | .unbuilt _ => true
      | _ => false
    (∀ f : FilterOptions, ∃ o, Given P u (settings f) o ∧ o.filter = f ∧ o.sampling.files = 0 ∧ o.sampling.dirs = 0) ∧
    unbuilt { child := some { type := .regex, pattern := "(" } } = true ∧ unbuilt { child := some { type := .globEx, pattern := "f" } } = true ∧
    unbuilt { child := some { type := .glob, pattern := "(" } } = false ∧ unbuilt { child := some { type := .regex, pattern := "f" } } = false ∧
    unbuilt { node := some (.plain { type := .regex, pattern := "(" }) } = true ∧ unbuilt { node := some (.plain { type := .undefined, pattern := "f" }) } = true ∧
    unbuilt { node := some (.plain { type := .glob, pattern := "(" }) } = false ∧ unbuilt { node := some (.plain { type := .regex, pattern := "f" }) } = false ∧
    unbuilt { sample := some { type := .regex, pattern := "f", scope := Scope.file } } = true ∧
    unbuilt { sample := some { type := .regex, pattern := "f", scope := Scope.directory } } = true ∧
    unbuilt { sample := some { type := .regex, pattern := "(", scope := Scope.leaf } } = true ∧
    unbuilt { sample := some { type := .regex, pattern := "f", scope := Scope.leaf } } = false ∧
    unbuilt { sample := some { type := .custom, pattern := "", scope := Scope.leaf, custom := some { matching := id } } } = false ∧
    unbuilt { sample := some { type := .custom, pattern := "", scope := Scope.leaf, custom := some { matching := id, validate := some (.code 4) } } } = true ∧
    unbuilt { custom := some { isMatch := fun _ => some true } } = false ∧
    unbuilt { custom := some { isMatch := fun _ => some true, validate := some (.code 4) } } = true := by
  intro P u settings unbuilt
  refine ⟨fun f => ⟨_, ⟨rfl, ⟨by decide, by decide, by decide⟩, rfl, rfl, rfl⟩, rfl, rfl, rfl⟩, by decide +kernel⟩

end Traverse
