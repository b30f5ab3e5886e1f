import Verif.Model.Options
import Verif.Props.Life
/-
C43: options are applied in order.
-/
namespace Traverse
variable {κ : Type}

/-- `fs`, called one after the other on `o`, all succeed and leave `o'`. -/
inductive AllSucceed : List (Setting κ) → Options κ → Options κ → Prop where
  | none (o) : AllSucceed [] o o
  | next (f fs o o1 o2) : f o = (o1, none) → AllSucceed fs o1 o2 → AllSucceed (f :: fs) o o2

theorem applyAll_spec (settings : List (Option (Setting κ))) (o o' : Options κ) :
    (applyAll settings o = (o', none) ↔ AllSucceed (settings.filterMap id) o o') ∧
    (∀ e, applyAll settings o = (o', some e) ↔
      ∃ before f after o1, settings.filterMap id = before ++ f :: after ∧ AllSucceed before o o1 ∧ f o1 = (o', some e)) := by
  induction settings generalizing o with
  | nil =>
    refine ⟨⟨?_, ?_⟩, fun e => ⟨?_, ?_⟩⟩
    · intro h; simp only [applyAll, Prod.mk.injEq] at h; rw [h.1]; exact .none _
    · intro h; cases h; rfl
    · intro h; simp [applyAll] at h
    · rintro ⟨b, f, a, o1, h, _⟩; simp at h
  | cons s ss ih =>
    cases s with
    | none => simpa [applyAll] using ih o
    | some f =>
      rcases hf : f o with ⟨o1, _ | e1⟩
      · obtain ⟨ih1, ih2⟩ := ih o1
        have hs : applyAll (some f :: ss) o = applyAll ss o1 := by simp [applyAll, hf]
        have hl : (some f :: ss).filterMap id = f :: ss.filterMap id := rfl
        rw [hs, hl]
        refine ⟨⟨fun h => .next f _ o o1 o' hf (ih1.1 h), ?_⟩, fun e => ⟨fun h => ?_, ?_⟩⟩
        · intro h
          cases h with
          | next _ _ _ o2 _ h1 h2 =>
            rw [hf] at h1; cases h1; exact ih1.2 h2
        · obtain ⟨b, g, a, o2, h1, h2, h3⟩ := (ih2 e).1 h
          exact ⟨f :: b, g, a, o2, by simp [h1], .next f _ o o1 o2 hf h2, h3⟩
        · rintro ⟨b, g, a, o2, h1, h2, h3⟩
          cases b with
          | nil =>
            cases h2
            simp only [List.nil_append, List.cons.injEq] at h1
            rw [← h1.1, hf] at h3; cases h3
          | cons c b =>
            simp only [List.cons_append, List.cons.injEq] at h1
            cases h2 with
            | next _ _ _ o3 _ h4 h5 =>
              rw [← h1.1, hf] at h4; cases h4
              exact (ih2 e).2 ⟨b, g, a, o2, h1.2, h5, h3⟩
      · have hs : applyAll (some f :: ss) o = (o1, some e1) := by simp [applyAll, hf]
        have hl : (some f :: ss).filterMap id = f :: ss.filterMap id := rfl
        rw [hs, hl]
        refine ⟨⟨(fun h => by cases h), ?_⟩, fun e => ⟨fun h => ?_, ?_⟩⟩
        · intro h
          cases h with
          | next _ _ _ o2 _ h1 h2 => rw [hf] at h1; cases h1
        · cases h
          exact ⟨[], f, _, o, rfl, .none _, hf⟩
        · rintro ⟨b, g, a, o2, h1, h2, h3⟩
          cases b with
          | nil =>
            cases h2
            simp only [List.nil_append, List.cons.injEq] at h1
            rw [← h1.1, hf] at h3; cases h3; rfl
          | cons c b =>
            simp only [List.cons_append, List.cons.injEq] at h1
            cases h2 with
            | next _ _ _ o3 _ h4 h5 => rw [← h1.1, hf] at h4; cases h4

/-- **C43** The options are applied to the defaults from left to right, nil ones are left out. They succeed exactly if
every one of them does; otherwise the first one to fail is the last one called, and its error is what is returned. -/
theorem C43_order (P : Platform κ) (settings : List (Option (Setting κ))) (o : Options κ) :
    (getOptions P settings = (o, none) ↔ AllSucceed (settings.filterMap id) (defaultOptions P) o) ∧
    (∀ e, getOptions P settings = (o, some e) ↔
      ∃ before f after o1, settings.filterMap id = before ++ f :: after ∧ AllSucceed before (defaultOptions P) o1 ∧
        f o1 = (o, some e)) :=
  applyAll_spec settings (defaultOptions P) o

/-- The same when settings are applied to loaded options on resume. -/
theorem C43_resume (loaded : Options κ) (settings : List (Option (Setting κ))) (o : Options κ) :
    (bindOptions loaded settings = (o, none) ↔ AllSucceed (settings.filterMap id) loaded.rebind o) ∧
    (∀ e, bindOptions loaded settings = (o, some e) ↔
      ∃ before f after o1, settings.filterMap id = before ++ f :: after ∧ AllSucceed before loaded.rebind o1 ∧
        f o1 = (o, some e)) :=
  applyAll_spec settings loaded.rebind o

/-- The things an option can determine. Hooks are what is called when the hook is used. -/
inductive Field where
  | keepTrailingSep | isCaseSensitive | sortFilesFirst | depth | noRecurse
  | sampling | filter | sink
  | wakeAt | sleepAt | inclusiveWake | inclusiveSleep
  | now | inputSize | output
  | fileSubPath | directorySubPath | readDirectory | queryStatus | sort
  | log | adminPath | fault | panic | skip

/-- Their types. -/
@[reducible] def Field.Val (κ : Type) : Field → Type
  | .keepTrailingSep | .isCaseSensitive | .sortFilesFirst | .noRecurse | .inclusiveWake | .inclusiveSleep => Bool
  | .depth | .now | .inputSize | .log => Nat
  | .sampling => SamplingOptions
  | .filter => FilterOptions
  | .sink => Option Nat
  | .wakeAt | .sleepAt => Option FilterDef
  | .output => OutputOptions
  | .fileSubPath | .directorySubPath => SubPathInfo → Str
  | .readDirectory => ReadResult → ReadResult
  | .queryStatus => Stat → Stat
  | .sort => List Tree → List Tree
  | .adminPath => String
  | .fault => κ → Path → Err → κ × Option Err
  | .panic => κ → Active → κ × Rescue
  | .skip => κ → Node → Option Err → κ × Skip × Option Err

/-- Where they are found. -/
def Field.get (o : Options κ) : (f : Field) → f.Val κ
  | .keepTrailingSep => o.behaviours.keepTrailingSep
  | .isCaseSensitive => o.behaviours.isCaseSensitive
  | .sortFilesFirst => o.behaviours.sortFilesFirst
  | .depth => o.behaviours.cascade.depth
  | .noRecurse => o.behaviours.cascade.noRecurse
  | .sampling => o.sampling
  | .filter => o.filter
  | .sink => o.sink
  | .wakeAt => o.hibernate.wakeAt
  | .sleepAt => o.hibernate.sleepAt
  | .inclusiveWake => o.hibernate.inclusiveWake
  | .inclusiveSleep => o.hibernate.inclusiveSleep
  | .now => o.concurrency.now
  | .inputSize => o.concurrency.inputSize
  | .output => o.concurrency.output
  | .fileSubPath => o.hooks.fileSubPath.invoke
  | .directorySubPath => o.hooks.directorySubPath.invoke
  | .readDirectory => o.hooks.readDirectory.invoke
  | .queryStatus => o.hooks.queryStatus.invoke
  | .sort => o.hooks.sort.invoke
  | .log => o.log
  | .adminPath => o.adminPath
  | .fault => o.defects.fault
  | .panic => o.defects.panic
  | .skip => o.defects.skip

/-- What each library option is documented to set, and to what. -/
def With.gives (P : Platform κ) : With κ → (f : Field) → Option (f.Val κ)
  | .cpu, .now => some P.cpus
  | .noW n, .now => some n
  | .output o, .output => some o
  | .filter f _, .filter => some f
  | .filter _ s, .sink => some s
  | .exclusiveWake, .inclusiveWake => some false
  | .inclusiveSleep, .inclusiveSleep => some true
  | .filterWake d, .wakeAt => some d
  | .filterSleep d, .sleepAt => some d
  | .hibernation h, .wakeAt => some h.wakeAt
  | .hibernation h, .sleepAt => some h.sleepAt
  | .hibernation h, .inclusiveWake => some h.inclusiveWake
  | .hibernation h, .inclusiveSleep => some h.inclusiveSleep
  | .caseSensitiveSort, .sort => some (P.sortSlice id)
  | .sort f, .sort => some f
  | .fileSubPath f, .fileSubPath => some f
  | .directorySubPath f, .directorySubPath => some f
  | .queryStatus f, .queryStatus => some f
  | .readDirectory f, .readDirectory => some f
  | .adminPath p, .adminPath => some p
  | .logger l, .log => some l
  | .behaviours b, .keepTrailingSep => some b.keepTrailingSep
  | .behaviours b, .isCaseSensitive => some b.isCaseSensitive
  | .behaviours b, .sortFilesFirst => some b.sortFilesFirst
  | .behaviours b, .depth => some b.cascade.depth
  | .behaviours b, .noRecurse => some b.cascade.noRecurse
  | .subPath k, .keepTrailingSep => some k
  | .sortBehaviour cs _, .isCaseSensitive => some cs
  | .sortBehaviour _ ff, .sortFilesFirst => some ff
  | .depth n, .depth => some n
  | .noRecurse, .noRecurse => some true
  | .sampling s, .sampling => some s
  | .faultHandler h, .fault => some h
  | .panicHandler h, .panic => some h
  | .skipHandler h, .skip => some h
  | _, _ => none

theorem apply_gives (P : Platform κ) (w : With κ) (f : Field) (o : Options κ) :
    f.get (w.apply P o) = (w.gives P f).getD (f.get o) := by
  cases w <;> cases f <;> rfl

/-- A list of settings, each a library option or nil. -/
def settingsOf (P : Platform κ) (ws : List (Option (With κ))) : List (Option (Setting κ)) :=
  ws.map (fun w => w.bind (With.setting P))

theorem applyAll_settings (P : Platform κ) (ws : List (Option (With κ))) (o : Options κ) :
    applyAll (settingsOf P ws) o = ((ws.filterMap id).foldl (fun o w => w.apply P o) o, none) := by
  induction ws generalizing o with
  | nil => rfl
  | cons w ws ih =>
    cases w with
    | none => simpa [settingsOf, applyAll] using ih o
    | some w => simpa [settingsOf, applyAll, With.setting] using ih (w.apply P o)

/-- **C43** Given library options (nil ones among them), nothing fails, and everything that options determine has the value
given by the last option that concerns it, or, if there is none, its default. -/
theorem C43_last_wins (P : Platform κ) (ws : List (Option (With κ))) (f : Field) :
    (getOptions P (settingsOf P ws)).2 = none ∧
    f.get (getOptions P (settingsOf P ws)).1 =
      ((ws.filterMap id).filterMap (fun w => w.gives P f)).getLast?.getD (f.get (defaultOptions P)) := by
  rw [getOptions, applyAll_settings]
  refine ⟨rfl, ?_⟩
  show f.get ((ws.filterMap id).foldl (fun o w => w.apply P o) (defaultOptions P)) = _
  generalize defaultOptions P = o
  generalize ws.filterMap id = l
  clear ws
  induction l generalizing o with
  | nil => rfl
  | cons w l ih =>
    rw [List.foldl_cons, ih, apply_gives]
    cases h : w.gives P f with
    | none => simp [h]
    | some v => simp [h, List.getLast?_cons]

/-- The defaults a user relies on. -/
theorem C43_defaults (P : Platform κ) :
    let o := defaultOptions P
    Field.get o .keepTrailingSep = true ∧ Field.get o .sortFilesFirst = false ∧ Field.get o .depth = 0 ∧
    Field.get o .noRecurse = false ∧ Field.get o .inclusiveWake = true ∧ Field.get o .inclusiveSleep = false ∧
    Field.get o .wakeAt = none ∧ Field.get o .sleepAt = none ∧ Field.get o .now = P.cpus ∧
    Field.get o .sampling = {} ∧ Field.get o .filter = {} ∧
    Field.get o .sort = P.sortSlice P.engine.lower ∧ Field.get o .queryStatus = id ∧
    (∀ k p e, Field.get o .fault k p e = (k, some e)) ∧ (∀ k n e, Field.get o .skip k n e = (k, .none, none)) :=
  ⟨rfl, rfl, rfl, rfl, rfl, rfl, rfl, rfl, rfl, rfl, rfl, rfl, rfl, fun _ _ _ => rfl, fun _ _ _ => rfl⟩

/-- The listeners given for event `e`, in order. -/
def givenListeners (ws : List (With κ)) (e : LifeEv) : List (Listener Note κ) :=
  ws.filterMap fun | .on e' l => if e' = e then some l else none | _ => none

theorem set_get (c : Controls κ) (e e' : LifeEv) (x) : (c.set e x).get e' = if e = e' then x else c.get e' := by
  cases e <;> cases e' <;> rfl

theorem events_after (P : Platform κ) (l : List (With κ)) (o : Options κ) (e : LifeEv) :
    (l.foldl (fun o w => w.apply P o) o).events.get e = (givenListeners l e).foldl NotificationCtrl.on (o.events.get e) := by
  induction l generalizing o with
  | nil => rfl
  | cons w l ih =>
    rw [List.foldl_cons, ih]
    cases w with
    | on e' x =>
      show List.foldl _ ((o.events.set e' ((o.events.get e').on x)).get e) _ = _
      rw [set_get]
      by_cases h : e' = e
      · subst h; simp [givenListeners]
      · simp [givenListeners, h]
    | _ => rfl

/-- **C43** Listeners are not replaced but added: an event runs all listeners given for it, in the order of the options. -/
theorem C43_listeners (P : Platform κ) (ws : List (Option (With κ))) (e : LifeEv) (n : Note) (k : κ) :
    ((getOptions P (settingsOf P ws)).1.events.get e).dispatch n k =
      (givenListeners (ws.filterMap id) e).foldl (fun k l => l n k) k := by
  rw [getOptions, applyAll_settings]
  show (((ws.filterMap id).foldl (fun o w => w.apply P o) (defaultOptions P)).events.get e).dispatch n k = _
  rw [events_after]
  have h0 : (defaultOptions P).events.get e = (NotificationCtrl.new : NotificationCtrl Note κ) := by cases e <;> rfl
  rw [h0]
  generalize givenListeners (ws.filterMap id) e = ls
  have hi := ctrl_inv (ls.map (CtrlOp.on (α := Note) (σ := κ)))
  have hf : (ls.map (CtrlOp.on (α := Note) (σ := κ))).foldl CtrlOp.apply NotificationCtrl.new =
      ls.foldl NotificationCtrl.on NotificationCtrl.new := by
    rw [List.foldl_map]; rfl
  have hl : listenersOf (ls.map (CtrlOp.on (α := Note) (σ := κ))) = ls := by
    simp [listenersOf, List.filterMap_map, Function.comp_def]
  have hm : mutedAfter (ls.map (CtrlOp.on (α := Note) (σ := κ))) = false := by
    simp only [mutedAfter, List.foldl_map]
    clear hi hf hl
    induction ls with
    | nil => rfl
    | cons l ls ih => exact ih
  rw [hf] at hi
  rw [NotificationCtrl.dispatch, hi.muted, hm, hi.invoke, hl]
  rfl

/-- **C43** Conditional options: the option if the condition holds, otherwise nothing (or the alternative). -/
theorem C43_conditional (c : Bool) (s : Option (Setting κ)) (t f : Unit → Option (Setting κ)) (before after : List (Option (Setting κ)))
    (o : Options κ) :
    applyAll (before ++ ifOption c s :: after) o = (if c then applyAll (before ++ s :: after) o else applyAll (before ++ after) o) ∧
    applyAll (before ++ ifOptionF c t :: after) o = (if c then applyAll (before ++ t () :: after) o else applyAll (before ++ after) o) ∧
    applyAll (before ++ ifElseOptionF c t f :: after) o =
      (if c then applyAll (before ++ t () :: after) o else applyAll (before ++ f () :: after) o) := by
  have hnil : ∀ (b a : List (Option (Setting κ))) (o : Options κ), applyAll (b ++ none :: a) o = applyAll (b ++ a) o := by
    intro b a
    induction b with
    | nil => intro o; rfl
    | cons x b ih =>
      intro o
      cases x with
      | none => exact ih o
      | some g =>
        simp only [List.cons_append, applyAll]
        rcases g o with ⟨o1, _ | e⟩
        · exact ih o1
        · rfl
  cases c
  · exact ⟨by simp [ifOption, hnil], by simp [ifOptionF, hnil], by simp [ifElseOptionF]⟩
  · exact ⟨by simp [ifOption], by simp [ifOptionF], by simp [ifElseOptionF]⟩

/-- **C43** What is settled after all options are known, wherever they stood: NoRecurse means depth 1, queue sizes that were
not given are the number of workers. Nothing else changes. -/
theorem C43_afterwards (o : Options κ) :
    Field.get o.afterwards .depth = (if Field.get o .noRecurse then 1 else Field.get o .depth) ∧
    Field.get o.afterwards .inputSize =
      (if Field.get o .inputSize = 0 then Field.get o .now else Field.get o .inputSize) ∧
    (Field.get o.afterwards .output).size =
      (if (Field.get o .output).on.isSome ∧ (Field.get o .output).size = 0 then Field.get o .now else (Field.get o .output).size) ∧
    (∀ f : Field, f ≠ .depth → f ≠ .inputSize → f ≠ .output → f.get o.afterwards = f.get o) ∧
    o.afterwards.events = o.events := by
  have hc : ∀ b : Cascade, b.afterwards.depth = if b.noRecurse then 1 else b.depth := by
    intro b; unfold Cascade.afterwards; split <;> rfl
  have hn : ∀ b : Cascade, b.afterwards.noRecurse = b.noRecurse := by
    intro b; unfold Cascade.afterwards; split <;> rfl
  refine ⟨hc _, ?_, ?_, ?_, rfl⟩
  · by_cases h : o.concurrency.inputSize = 0 <;>
      by_cases h2 : o.concurrency.output.on.isSome ∧ o.concurrency.output.size = 0 <;>
        simp [Field.get, Options.afterwards, h, h2]
  · by_cases h : o.concurrency.inputSize = 0 <;>
      by_cases h2 : o.concurrency.output.on.isSome ∧ o.concurrency.output.size = 0 <;>
        simp [Field.get, Options.afterwards, h, h2]
  · intro f h1 h2 h3
    cases f <;> first | rfl | exact absurd rfl h1 | exact absurd rfl h2 | exact absurd rfl h3 | skip
    · exact hn _
    · by_cases h : o.concurrency.inputSize = 0 <;>
        by_cases h2 : o.concurrency.output.on.isSome ∧ o.concurrency.output.size = 0 <;>
          simp [Field.get, Options.afterwards, h, h2]

/-- Not vacuous: depth given twice with a nil option between, then NoRecurse; and an option that fails in the middle. -/
example (P : Platform κ) :
    let o := (getOptions P (settingsOf P [some (.depth 7), none, some (.depth 3), some .noRecurse, some (.noW 4)])).1
    Field.get o .depth = 3 ∧ Field.get o.afterwards .depth = 1 ∧ Field.get o.afterwards .inputSize = 4 :=
  ⟨rfl, rfl, rfl⟩

example (P : Platform κ) :
    let bad : Setting κ := fun o => (o, some (.code 5))
    let r := getOptions P [(With.depth 7).setting P, some bad, (With.depth 3).setting P]
    r.2 = some (.code 5) ∧ Field.get r.1 .depth = 7 := ⟨rfl, rfl⟩

end Traverse
