import Verif.Model.Cascade
import Verif.Model.Life
import Verif.Model.Sampling
import Verif.Model.Sort
import Verif.Model.Paths
/-
Options: pref/options*.go, pref/defects.go, pref/defaults.go, internal/opts/{get-push,load,binder}.go,
internal-traverse-defs.go (afterwards).
-/
namespace Traverse

/-- Machine and libraries: runtime.NumCPU, filepath.Match / regexp / strings (Engine), sort.Slice with a less function that
compares a key, and what writing the saved state to disk does (author.go:18-47). -/
structure Platform (κ : Type) where
  cpus : Nat
  engine : Engine
  sortSlice : (String → String) → List Tree → List Tree
  save : κ → Active → κ × Rescue

/-- pref.NavigationBehaviours (options-navigation-behaviours.go:5-54). -/
structure Behaviours where
  keepTrailingSep : Bool := false
  isCaseSensitive : Bool := false
  sortFilesFirst : Bool := false
  cascade : Cascade := {}
  deriving DecidableEq, Repr

/-- enums.SampleType (enums/sample-type-en.go:8-13). -/
inductive SampleType where
  | undefined | slice | filter | custom
  deriving DecidableEq, Repr, Inhabited

/-- pref.SamplingOptions (options-sampling.go:10-36) without Iteration, which is never used. -/
structure SamplingOptions where
  type : SampleType := .undefined
  inReverse : Bool := false
  files : Nat := 0
  dirs : Nat := 0
  deriving DecidableEq, Repr

/-- core.HibernateOptions (core/hibernate.go:5-25). -/
structure HibernateOptions where
  wakeAt : Option FilterDef := none
  sleepAt : Option FilterDef := none
  inclusiveWake : Bool := false
  inclusiveSleep : Bool := false
  deriving DecidableEq, Repr

/-- pref.OutputOptions (options-concurrency.go:22-48); `on` is the client's function, known by a number. -/
structure OutputOptions where
  size : Nat := 0
  checkCloseInterval : Int := 0
  timeoutOnSend : Int := 0
  on : Option Nat := none
  deriving DecidableEq, Repr

/-- pref.ConcurrencyOptions (options-concurrency.go:50-61). -/
structure Concurrency where
  now : Nat := 0
  inputSize : Nat := 0
  output : OutputOptions := {}
  deriving DecidableEq, Repr

/-- core.SubPathInfo: what the sub path hooks are given. (core/hooks.go:37-41.) -/
structure SubPathInfo where
  tree : Str
  path : Str
  scope : Scope
  keep : Bool
  deriving DecidableEq, Repr

/-- What QueryStatus says of the tree path, the whole of what lies below it included. (core/hooks.go, navigator-agent.go:50.) -/
abbrev Stat := Except Err FS

/-- tapable.Hooks: what each hook is called with is the file system's own answer. (tapable/hooks.go:8-14.) -/
structure Hooks where
  fileSubPath : HookCtrl SubPathInfo Str
  directorySubPath : HookCtrl SubPathInfo Str
  readDirectory : HookCtrl ReadResult ReadResult
  queryStatus : HookCtrl Stat Stat
  sort : HookCtrl (List Tree) (List Tree)

/-- pref.DefectOptions (defects.go:49-53), the fault handler being given the path and the error. -/
structure Defects (κ : Type) where
  fault : κ → Path → Err → κ × Option Err
  panic : κ → Active → κ × Rescue
  skip : κ → Node → Option Err → κ × Skip × Option Err

/-- pref.Options (options.go:15-57). Events are the controls they are bound to; loggers and sinks are known by numbers. -/
structure Options (κ : Type) where
  behaviours : Behaviours := {}
  sampling : SamplingOptions := {}
  filter : FilterOptions := {}
  sink : Option Nat := none
  hibernate : HibernateOptions := {}
  concurrency : Concurrency := {}
  events : Controls κ
  hooks : Hooks
  log : Nat := 0
  adminPath : String := ""
  defects : Defects κ

variable {κ : Type}

/-- newHooks (options.go:141-183) with the default hooks (defaults.go:14-49, 76-83). -/
def newHooks (P : Platform κ) : Hooks where
  fileSubPath := .new (fun i => defaultSubPath i.keep i.tree i.path i.scope)
  directorySubPath := .new (fun i => defaultSubPath i.keep i.tree i.path i.scope)
  readDirectory := .new (fun r => defaultRead r.1 r.2)
  queryStatus := .new id
  sort := .new (P.sortSlice P.engine.lower)

/-- DefaultFaultHandler, DefaultPanicHandler, DefaultSkipHandler (defaults.go:85-97). -/
def defaultDefects (P : Platform κ) : Defects κ where
  fault k _ e := (k, some e)
  panic := P.save
  skip k _ _ := (k, .none, none)

/-- DefaultOptions (options.go:99-139). The events of a fresh Options are nil until bound: opts.Get binds them first. -/
def defaultOptions (P : Platform κ) : Options κ where
  behaviours := { keepTrailingSep := true }
  hibernate := { inclusiveWake := true, inclusiveSleep := false }
  concurrency := { now := P.cpus }
  events := .new
  hooks := newHooks P
  adminPath := "~/agenor/admin/resume"
  defects := defaultDefects P

/-- What went wrong in persist.Marshal or persist.Unmarshal (marshaler.go:52-109). -/
inductive PersistErr where
  | io (e : Err)            -- reading or writing the file
  | syntax                  -- not a document
  | unequal (field : String) -- locale.ErrUnEqualConversion
  deriving DecidableEq, Repr

/-- The reasons for which a session cannot be built or started. `option` is the error of an Option function.
(pref/facade.go:107-133, scaffold.go:26-209, builders.go:31-128.) -/
inductive BuildErr where
  | missingTree | missingSubscription | missingHandler
  | option (e : Err) | filter (e : FilterErr)
  | wrongPrimaryFacade | wrongResumeFacade
  | load (e : PersistErr) | nilForest | traverseFsMismatch | resumeFsMismatch
  | pool (e : Err)
  deriving DecidableEq, Repr

/-- pref.Option (options.go:60): changes the options, and may fail. -/
abbrev Setting (κ : Type) := Options κ → Options κ × Option Err

/-- apply (get-push.go:18-30): a nil option is `none`. -/
def applyAll : List (Option (Setting κ)) → Options κ → Options κ × Option Err
  | [], o => (o, none)
  | none :: ss, o => applyAll ss o
  | some f :: ss, o =>
    match f o with
    | (o', some e) => (o', some e)
    | (o', none) => applyAll ss o'

/-- opts.Get (get-push.go:7-16). -/
def getOptions (P : Platform κ) (settings : List (Option (Setting κ))) : Options κ × Option Err :=
  applyAll settings (defaultOptions P)

/-- opts.Push (get-push.go:32-37) and the beginning of opts.Bind (load.go:11-12): the events are bound to new controls. -/
def Options.rebind (o : Options κ) : Options κ := { o with events := .new }

/-- opts.Bind (load.go:8-20). -/
def bindOptions (o : Options κ) (settings : List (Option (Setting κ))) : Options κ × Option Err :=
  applyAll settings o.rebind

/-- IfOption (options.go:63-69). -/
def ifOption (c : Bool) (s : Option (Setting κ)) : Option (Setting κ) := if c then s else none
/-- IfOptionF (options.go:76-83). -/
def ifOptionF (c : Bool) (s : Unit → Option (Setting κ)) : Option (Setting κ) := if c then s () else none
/-- IfElseOptionF (options.go:85-97). -/
def ifElseOptionF (c : Bool) (t f : Unit → Option (Setting κ)) : Option (Setting κ) := if c then t () else f ()

/-- optionHarvest.afterwards (internal-traverse-defs.go:39-55). -/
def Options.afterwards (o : Options κ) : Options κ :=
  let b := { o.behaviours with cascade := o.behaviours.cascade.afterwards }
  let c := if o.concurrency.inputSize = 0 then { o.concurrency with inputSize := o.concurrency.now } else o.concurrency
  let c := if c.output.on.isSome ∧ c.output.size = 0 then { c with output := { c.output with size := c.now } } else c
  { o with behaviours := b, concurrency := c }

/-! ### The options of the library -/

/-- The With... functions of pref. (pref/options-*.go, pref/defects.go:74-101.) -/
inductive With (κ : Type) where
  | cpu | noW (n : Nat) | output (o : OutputOptions)
  | filter (f : FilterOptions) (sink : Option Nat)
  | exclusiveWake | inclusiveSleep | filterWake (d : Option FilterDef) | filterSleep (d : Option FilterDef)
  | hibernation (h : HibernateOptions)
  | caseSensitiveSort | fileSubPath (f : SubPathInfo → Str) | directorySubPath (f : SubPathInfo → Str)
  | queryStatus (f : Stat → Stat) | readDirectory (f : ReadResult → ReadResult) | sort (f : List Tree → List Tree)
  | on (e : LifeEv) (l : Listener Note κ)
  | adminPath (p : String) | logger (l : Nat)
  | behaviours (b : Behaviours) | subPath (keep : Bool) | sortBehaviour (isCaseSensitive sortFilesFirst : Bool)
  | depth (n : Nat) | noRecurse
  | sampling (s : SamplingOptions)
  | faultHandler (f : κ → Path → Err → κ × Option Err)
  | panicHandler (f : κ → Active → κ × Rescue)
  | skipHandler (f : κ → Node → Option Err → κ × Skip × Option Err)

/-- What each of them does (options-concurrency.go:67-93, options-filter.go:48-54, options-hibernate.go:10-56,
options-hooks.go:9-65, options-life.go:10-68, options-log.go:19-34, options-navigation-behaviours.go:58-101,
options-sampling.go:95-101, defects.go:74-101). None of them fails. -/
def With.apply (P : Platform κ) : With κ → Options κ → Options κ
  | .cpu, o => { o with concurrency := { o.concurrency with now := P.cpus } }
  | .noW n, o => { o with concurrency := { o.concurrency with now := n } }
  | .output out, o => { o with concurrency := { o.concurrency with output := out } }
  | .filter f s, o => { o with filter := f, sink := s }
  | .exclusiveWake, o => { o with hibernate := { o.hibernate with inclusiveWake := false } }
  | .inclusiveSleep, o => { o with hibernate := { o.hibernate with inclusiveSleep := true } }
  | .filterWake d, o => { o with hibernate := { o.hibernate with wakeAt := d } }
  | .filterSleep d, o => { o with hibernate := { o.hibernate with sleepAt := d } }
  | .hibernation h, o => { o with hibernate := h }
  | .caseSensitiveSort, o => { o with hooks := { o.hooks with sort := o.hooks.sort.tap (P.sortSlice id) } }
  | .fileSubPath f, o => { o with hooks := { o.hooks with fileSubPath := o.hooks.fileSubPath.tap f } }
  | .directorySubPath f, o => { o with hooks := { o.hooks with directorySubPath := o.hooks.directorySubPath.tap f } }
  | .queryStatus f, o => { o with hooks := { o.hooks with queryStatus := o.hooks.queryStatus.tap f } }
  | .readDirectory f, o => { o with hooks := { o.hooks with readDirectory := o.hooks.readDirectory.tap f } }
  | .sort f, o => { o with hooks := { o.hooks with sort := o.hooks.sort.tap f } }
  | .on e l, o => { o with events := o.events.set e ((o.events.get e).on l) }
  | .adminPath p, o => { o with adminPath := p }
  | .logger l, o => { o with log := l }
  | .behaviours b, o => { o with behaviours := b }
  | .subPath k, o => { o with behaviours := { o.behaviours with keepTrailingSep := k } }
  | .sortBehaviour cs ff, o => { o with behaviours := { o.behaviours with isCaseSensitive := cs, sortFilesFirst := ff } }
  | .depth n, o => { o with behaviours := { o.behaviours with cascade := withDepth n o.behaviours.cascade } }
  | .noRecurse, o => { o with behaviours := { o.behaviours with cascade := withNoRecurse o.behaviours.cascade } }
  | .sampling s, o => { o with sampling := s }
  | .faultHandler f, o => { o with defects := { o.defects with fault := f } }
  | .panicHandler f, o => { o with defects := { o.defects with panic := f } }
  | .skipHandler f, o => { o with defects := { o.defects with skip := f } }

/-- A library option as an Option. (pref/options.go:60.) -/
def With.setting (P : Platform κ) (w : With κ) : Option (Setting κ) := some (fun o => (w.apply P o, none))

end Traverse
