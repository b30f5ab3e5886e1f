import Verif.Model.Options
/-
Building and running a primary session: pref/facade.go, scaffold.go, extent.go, director.go, builders.go, factories.go,
session.go, driver.go, synchronise.go (sequential), navigator-factory.go, navigator-hades.go, mediator.go and the plugins'
Register and Init methods.
-/
namespace Traverse
variable {κ : Type}

/-- pref.Using (pref/facade.go:35-58) with its Head. The tree path `[]` stands for the empty string, a nil handler for
`none`. -/
structure Using (κ : Type) where
  tree : Path := []
  sub : Subscription := .undefined
  handler : Option (κ → Parcel → κ × Reply) := none
  o : Option (Options κ) := none

/-- pref.Relic (pref/facade.go:60-68) with its Head. `forest` is GetForest as far as it matters here: it may return nil,
else whether T and R are relative. -/
structure Relic (κ : Type) where
  handler : Option (κ → Parcel → κ × Reply) := none
  «from» : String := ""
  strategy : Strategy := .undefined
  forest : Option (Path → Option (Bool × Bool)) := none

/-- pref.Facade: the two implementations. (pref/facade.go:12-33.) -/
inductive Facade (κ : Type) where
  | using (u : Using κ)
  | relic (r : Relic κ)

/-- Using.Validate with Head.Validate (pref/facade.go:107-133). -/
def Using.validate (u : Using κ) : Option BuildErr :=
  if u.tree = [] then some .missingTree
  else if u.sub = .undefined then some .missingSubscription
  else if u.handler.isNone then some .missingHandler
  else none

/-- newPrimaryPlatform with buildOptions (scaffold.go:26-52, 145-162): the options as harvested, and the error. Options
given in the facade are taken as they are, the settings are not looked at. The forest is part of `Disk` below. -/
def primaryPlatform (P : Platform κ) (facade : Facade κ) (settings : List (Option (Setting κ))) :
    Options κ × Option BuildErr :=
  match facade with
  | .relic _ => ((getOptions P settings).1, some .wrongPrimaryFacade)   -- pacify, scaffold.go:102-121
  | .using u =>
    match u.o with
    | some o => (o.rebind, u.validate)
    | none =>
      let r := getOptions P settings
      (r.1, match u.validate with
        | some e => some e
        | none => r.2.map BuildErr.option)

/-! ### Plugins -/

/-- IsNodeFilteringActive (options-filter.go:56-59). -/
def FilterOptions.nodeActive (f : FilterOptions) : Bool :=
  match f.node with
  | some d => d.core.pattern != "" || d.poly.isSome
  | none => false
/-- A filter as a predicate on nodes, saying no where it panics. (scheme-custom.go:27-41, scheme-native.go.) -/
def Filter.predicate (E : Engine) (f : Filter) : Node → Bool := fun n => (f.isMatch E n.view).getD false
/-- Where it panics: a poly filter on a file without a parent (poly.go:66-72), a client's own wherever it likes. -/
def Filter.dies (E : Engine) (f : Filter) : Node → Bool := fun n => (f.isMatch E n.view).isNone

/-- unary and create of the primary scheme (schemes.go:68-88, scheme-custom.go:15-19, scheme-native.go:15-30,
scheme-sampler.go:19-39): the scheme, where its filter panics, and the options with what was chained to ReadDirectory. `panic`
also stands for a nil filter, which makes the first node panic. -/
def createPrimary (E : Engine) (o : Options κ) : Made (Option (Primary × (Node → Bool)) × Options κ) :=
  match o.filter.custom with
  | some c =>
    (match c.validate with
      | some e => .err (.client e)
      | none => .ok (some (.node ((Filter.custom c.isMatch).predicate E), (Filter.custom c.isMatch).dies E), o))
  | none =>
    if o.filter.nodeActive then
      match o.filter.node with
      | none => .panic
      | some d =>
        match newFilter E d o.filter with
        | .ok (some f) => .ok (some (.node (f.predicate E), f.dies E), o)
        | .ok none => .panic
        | .err e => .err e
        | .panic => .panic
    else if o.filter.sample.isSome then
      match newSample E o.filter.sample o.sampling.files o.sampling.dirs with
      | .ok (some m) =>
        .ok (some (.sample m, fun _ => false), { o with hooks := { o.hooks with readDirectory := o.hooks.readDirectory.chain (matchingHook m) } })
      | .ok none => .panic
      | .err e => .err e
      | .panic => .panic
    else .ok (none, o)

/-- nannyScheme.create (scheme-nanny.go:16-31), under IsChildFilteringActive (options-filter.go:61-63); `panic` as above. -/
def createChild (E : Engine) (o : Options κ) : Made (Option (Entry → Bool)) :=
  match o.filter.child with
  | none => .ok none
  | some d =>
    if d.pattern != "" then
      match newChild E d with
      | .ok (some f) => .ok (some f)
      | .ok none => .panic
      | .err e => .err e
      | .panic => .panic
    else .ok none

/-- Registration of the filter plugin (filter-plugin.go:37-43, scheme-hybrid.go:24-40): the primary scheme is created
first. No other plugin's Register can fail (base-plugin.go:20-24). -/
def registerFilter (E : Engine) (o : Options κ) : Made (FilterOpts × Options κ) :=
  match createPrimary E o with
  | .err e => .err e
  | .panic => .panic
  | .ok (p, o1) =>
    match createChild E o1 with
    | .err e => .err e
    | .panic => .panic
    | .ok c => .ok (⟨p.map Prod.fst, c, (p.map Prod.snd).getD fun _ => false⟩, o1)

/-- One trigger of simple.init (hibernate-simple-profile.go:25-31, 42-48). -/
def makeTrigger (E : Engine) (fo : FilterOptions) : Option FilterDef → Made (Option Filter)
  | none => .ok none
  | some d =>
    match newFilter E d fo with
    | .ok (some f) => .ok (some f)
    | .ok none => .panic
    | .err e => .err e
    | .panic => .panic

/-- Init of the hibernation plugin (hibernate-plugin.go:41-47, hibernate-simple-profile.go:21-62). -/
def initHibernation (E : Engine) (o : Options κ) : Made HiberOpts :=
  match makeTrigger E o.filter o.hibernate.wakeAt with
  | .err e => .err e
  | .panic => .panic
  | .ok w =>
    match makeTrigger E o.filter o.hibernate.sleepAt with
    | .err e => .err e
    | .panic => .panic
    | .ok s => .ok { wakeAt := w.map (Filter.predicate E), sleepAt := s.map (Filter.predicate E),
                     inclusiveWake := o.hibernate.inclusiveWake, inclusiveSleep := o.hibernate.inclusiveSleep,
                     wakeDies := (w.map (Filter.dies E)).getD fun _ => false, sleepDies := (s.map (Filter.dies E)).getD fun _ => false }

/-- IsSamplingActive (options-sampling.go:79-81). -/
def SamplingOptions.active (s : SamplingOptions) : Bool := decide (s.type ≠ .undefined)
/-- NoOf and InReverse (options-sampling.go:10-31). -/
def SamplingOptions.quota (s : SamplingOptions) : Quota := ⟨s.files, s.dirs, s.inReverse⟩

/-- Init of the sampling plugin (sampling-plugin.go:36-42). -/
def initSampling (o : Options κ) : Options κ :=
  if o.sampling.active then
    { o with hooks := { o.hooks with readDirectory := o.hooks.readDirectory.chain (sampleHook o.sampling.quota) } }
  else o

/-- What is navigated with, read off the options (navigator-factory.go:24-73, mediator.go:160-162, contents.go). -/
def Options.nav (o : Options κ) (sub : Subscription) : Nav where
  sub := sub
  filesFirst := o.behaviours.sortFilesFirst
  maxDepth := o.behaviours.cascade.depth
  read l e := o.hooks.readDirectory.invoke (l, e)
  sort := o.hooks.sort.invoke

/-- What buildAll makes (builders.go:31-128). `hades`: the controller that does nothing, with the error;
`stillborn`: the real controller, but with an error; `crash`: a panic, or a nil filter that is going to panic. -/
inductive Built (κ : Type) where
  | crash
  | hades (e : BuildErr)
  | stillborn (e : BuildErr) (o : Options κ)
  | ready (S : Setup) (o : Options κ)

/-- buildAll after the scaffold (builders.go:49-128): navigator, plugins (features, director.go:26-71), Init in the order
hibernation, nanny, filter, sampling, resume; only the first can fail. -/
def buildRest (P : Platform κ) (sub : Subscription) (resume : Option Strategy) (o : Options κ) : Built κ :=
  if sub = .undefined then .hades .missingSubscription
  else match registerFilter P.engine o with
    | .err e => .hades (.filter e)
    | .panic => .crash
    | .ok (f, o1) =>
      match initHibernation P.engine o1 with
      | .err e => .stillborn (.filter e) o1
      | .panic => .crash
      | .ok h =>
        let o2 := initSampling o1
        .ready { nav := o2.nav sub, hiber := h, filter := f, sampling := o2.sampling.active, resume := resume } o2

/-- buildAll of a primary session. The options are harvested through afterwards (internal-traverse-defs.go:20-29). -/
def buildPrimary (P : Platform κ) (facade : Facade κ) (settings : List (Option (Setting κ))) : Built κ :=
  match primaryPlatform P facade settings with
  | (_, some e) => .hades e
  | (o, none) =>
    match facade with
    | .relic _ => .crash   -- does not happen: that is an error
    | .using u => buildRest P u.sub none o.afterwards

/-! ### Running it -/

/-- The error Navigate returns. (driver.go:29-37.) -/
inductive Verdict where
  | unbuilt (e : BuildErr)
  | done (e : Option Err)
  | panic
  deriving DecidableEq, Repr

/-- What a session amounts to: the verdict, the client's state, everything the client side saw in order, the handler
calls in detail, and the metrics and IsComplete() of the result (`false` also where there is no result).
(driver.go:29-37, session.go:17-43, core/core-defs.go:16-40.) -/
structure Report (κ : Type) where
  verdict : Verdict
  client : κ
  tape : List Obs
  hits : List Hit := []
  metrics : Metrics := fun _ => none
  complete : Bool := false

/-- The client's side: handler of the facade, the rest from the options. (pref/facade.go:12-33, mediator.go:33-60.) -/
def Options.client (o : Options κ) (h : κ → Parcel → κ × Reply) : Client κ where
  handler := h
  listen k n := (o.events.get n.ev).dispatch n k
  skip := o.defects.skip
  panics := o.defects.panic

/-- Defects.Fault.Accept (navigator-agent.go:53-58). -/
def Options.fault (o : Options κ) (w : World κ) (p : Path) (e : Err) : World κ × Option Err :=
  let r := o.defects.fault w.client p e
  ({ w with client := r.1 }, r.2)

/-- The file system: what Stat says of a path, with everything that lies below. (scaffold.go:123-143.) -/
abbrev Disk := Path → Stat

/-- The error of driver.Navigate (driver.go:29-37). -/
def Final.verdict : Final → Verdict
  | .done e => .done e
  | .panic => .panic

/-- Options.Hooks.QueryStatus on a path (navigator-agent.go:50). -/
def statOf (c : Nav) (o : Options κ) (disk : Disk) (p : Path) : RootStat :=
  match o.hooks.queryStatus.invoke (disk p) with
  | .error e => .error e
  | .ok fs => .found (prep c fs)

/-- mediator.Navigate / Spawn / Snooze (mediator.go:90-100, 114-128, 142-154): top on the path `tree`. -/
def runTop (S : Setup) (o : Options κ) (C : Client κ) (disk : Disk) (tree target : Path) (s : St (World κ)) :
    Final × St (World κ) :=
  top S.nav (S.env C tree target) o.fault tree.dropLast tree (statOf S.nav o disk tree) s

/-- driver.Navigate of a sequential session (driver.go:29-37, session.go:17-43, synchronise.go:36-42, 125-131, mediator.go:130-135,
156-158): Begin, navigation, End. A panic that is not rescued passes through and End is not reached. -/
def Built.navigate (b : Built κ) (h : κ → Parcel → κ × Reply) (disk : Disk) (tree : Path) (x : κ) : Report κ :=
  match b with
  | .crash => { verdict := .panic, client := x, tape := [] }
  | .hades e => { verdict := .unbuilt e, client := x, tape := [] }
  | .stillborn e o =>
    let C := o.client h
    { verdict := .unbuilt e, client := C.listen (C.listen x (.begin tree)) .ended, tape := [.note (.begin tree), .note .ended], complete := true }
  | .ready S o =>
    let C := o.client h
    let w := (S.world x (fun _ => none)).publish C (.begin tree)
    let r := runTop S o C disk tree [] ⟨0, w, []⟩
    match r.1 with
    | .panic => { verdict := .panic, client := r.2.ext.client, tape := r.2.ext.tape, hits := r.2.ext.hits }
    | .done e =>
      let w' := r.2.ext.publish C .ended
      { verdict := .done e, client := w'.client, tape := w'.tape, hits := w'.hits, metrics := w'.metrics, complete := true }

/-- age.Walk().Configure().Extent(age.Prime(facade, settings...)).Navigate(ctx). (factories.go:20-71.) -/
def walkPrime (P : Platform κ) (facade : Facade κ) (settings : List (Option (Setting κ))) (disk : Disk) (x : κ) : Report κ :=
  match facade with
  | .relic r => (buildPrimary P facade settings).navigate (r.handler.getD (fun k _ => (k, .ok none))) disk [] x
  | .using u => (buildPrimary P facade settings).navigate (u.handler.getD (fun k _ => (k, .ok none))) disk u.tree x

end Traverse
