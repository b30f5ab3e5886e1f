import Verif.Model.Kernel
import Verif.Model.Collections
/-
The invocation chain around the client's handler: internal/kernel/guardian.go, manifest.go, director.go (features),
builders.go (INIT PLUGINS), the links of internal/feat/{hiber,nanny,filter,sampling,resume}, core/metrics.go and
internal/enclave/supervisor.go, together with the parts of internal/kernel/mediator.go, author.go and
navigation-vapour.go that the chain and the panic handler see.
-/
namespace Traverse

/-! ### Metrics -/

/-- enums.Metric (enums/metric-en.go). -/
inductive Metric where
  | filesInvoked | filesFilteredOut | dirsInvoked | dirsFilteredOut | childFound | childFilteredOut
  deriving DecidableEq, Repr, Inhabited

/-- The metrics of the supervisor (core.Metrics, core/metrics.go:32): the map from kinds to the current counter of the
shared NavigationMetric object. The crates of the plugins (Supervisor.Many) hold pointers to the same objects, so one map
is enough. Counters are natural numbers: wrapping around at 2^64 is not modelled. -/
abbrev Metrics := Metric → Option Nat

/-- Supervisor.Single (supervisor.go:28-40): registers the metric, an existing one is kept. -/
def Metrics.single (m : Metrics) (k : Metric) : Metrics :=
  fun j => if j = k ∧ m k = none then some 0 else m j
/-- Supervisor.Many (supervisor.go:42-50). -/
def Metrics.many (m : Metrics) (ks : List Metric) : Metrics := ks.foldl Metrics.single m
/-- Supervisor.Count (supervisor.go:52-58). -/
def Metrics.count (m : Metrics) (k : Metric) : Nat := (m k).getD 0
/-- NavigationMetric.Times (core/metrics.go:54-58); nothing happens if the metric was never registered (the anchor checks
for that, guardian.go:44; the plugins register what they use in their Init). -/
def Metrics.times (m : Metrics) (k : Metric) (n : Nat) : Metrics :=
  fun j => if j = k then (m k).map (· + n) else m j
/-- NavigationMetric.Tick (core/metrics.go:48-52). -/
def Metrics.tick (m : Metrics) (k : Metric) : Metrics := m.times k 1
/-- Metrics.Merge (core/metrics.go:60-73), Supervisor.Load (supervisor.go:24-26): only metrics already registered in the
receiver take part. -/
def Metrics.merge (m other : Metrics) : Metrics := fun j =>
  match m j, other j with
  | some a, some b => some (a + b)
  | x, _ => x

/-! ### Links and the guardian -/

/-- enums.Role (enums/role-en.go). -/
inductive Role where
  | undefined | anchor | clientFilter | hibernate | sampler | nanny | fastward
  deriving DecidableEq, Repr, Inhabited

/-- The node as the links and the handler see it, with its Children (core/node.go:25). -/
structure Parcel where
  node : Node
  children : List Entry
  deriving DecidableEq, Repr, Inhabited

/-- What Link.Next answers: `(next, err)`, or a panic. (internal/enclave/enclave-defs.go:19-26.) -/
inductive Turn where
  | go (next : Bool) (e : Option Err)
  | panic
  deriving DecidableEq, Repr, Inhabited

/-- Whether the turn lets the next link run (`!next || err != nil` is false, guardian.go:156). -/
def Turn.goesOn : Turn → Bool
  | .go true none => true
  | _ => false

/-- What the navigator sees of a turn that does not go on (guardian.go:156-158). -/
def Turn.reply : Turn → Reply
  | .go _ e => .ok e
  | .panic => .panic

/-- A link: acts on the outside state and on the node. (internal/enclave/enclave-defs.go:19-26.) -/
abbrev Link (ω : Type) := ω → Parcel → ω × Parcel × Turn

/-- guardian.iterate (guardian.go:152-162) over the roles listed by positions.Items() when the loop starts; the roles
that ran are returned as well (ghost). `impl` gives the link stored under a role, `none` being the nil link of a missing
key, whose Next panics. -/
def iterate {ω : Type} (impl : ω → Role → Option (Link ω)) : List Role → ω → Parcel → ω × Parcel × Reply × List Role
  | [], w, p => (w, p, .ok none, [])
  | r :: rs, w, p =>
    match impl w r with
    | none => (w, p, .panic, [])
    | some link =>
      match link w p with
      | (w1, p1, t) =>
        if t.goesOn then
          match iterate impl rs w1 p1 with
          | (w2, p2, rep, ran) => (w2, p2, rep, r :: ran)
        else (w1, p1, t.reply, [r])

/-- guardian.container (guardian.go:14-18): the keys of the chain map and the positional set, nil until arrange has seen
an active role. -/
structure Guard where
  positions : Option (PSet Role)
  chain : List Role

/-- newGuardian (guardian.go:76-90). -/
def Guard.fresh : Guard := ⟨none, []⟩
/-- guardian.arrange (guardian.go:92-112). -/
def Guard.arrange (g : Guard) (active order : List Role) : Guard :=
  { positions := if active.isEmpty then g.positions else some (PSet.new order Role.anchor)
    chain := Role.anchor :: g.chain }
/-- guardian.Decorate (guardian.go:118-130); neither sealer seals anything (guardian.go:177-179,
strategy-fastward.go:67-69). With nil positions the Go code dereferences nil; no plugin is active then. -/
def Guard.decorate (g : Guard) (r : Role) : Guard :=
  { positions := g.positions.map (fun ps => (ps.top.1.insert r).1), chain := r :: g.chain }
/-- guardian.Unwind (guardian.go:132-143). -/
def Guard.unwind (g : Guard) (r : Role) : Guard :=
  if r = Role.anchor then g
  else { positions := g.positions.map (fun ps => ps.delete r), chain := g.chain.filter (fun x => !decide (x = r)) }

/-! ### Which links there are: features, manifest -/

/-- manifestOrder (manifest.go:16-23). -/
def manifestOrder : List Role := [.fastward, .hibernate, .nanny, .clientFilter, .sampler]

/-- The three rules of manifest (manifest.go:31-49); `acc` holds the roles accepted so far. -/
def manifestRule (current : Role) (acc : List Role) : Bool :=
  manifestOrder.contains current
    && !(decide (current = .clientFilter) && acc.contains .sampler)
    && !(decide (current = .nanny) && acc.contains .clientFilter)

/-- manifest (manifest.go:29-67): goes through the active roles in the order of their activation. -/
def manifest (active : List Role) : List Role :=
  active.foldl (fun acc r => if manifestRule r acc then acc ++ [r] else acc) []

/-- enums.ResumeStrategy (enums/resume-strategy-en.go). -/
inductive Strategy where
  | undefined | spawn | fastward
  deriving DecidableEq, Repr, Inhabited

/-- core.HibernateOptions (core/hibernate.go:5-25) with the filters made of WakeAt and SleepAt by filtering.New; `wakeDies` and
`sleepDies` tell where these panic. -/
structure HiberOpts where
  wakeAt : Option (Node → Bool) := none
  sleepAt : Option (Node → Bool) := none
  inclusiveWake : Bool := true
  inclusiveSleep : Bool := false
  wakeDies : Node → Bool := fun _ => false
  sleepDies : Node → Bool := fun _ => false

/-- IsHibernateActive (core/hibernate.go:28-30). -/
def HiberOpts.active (h : HiberOpts) : Bool := h.wakeAt.isSome || h.sleepAt.isSome

/-- The primary scheme of the filter plugin (schemes.go:68-88): a node filter (custom or native), or the sample filter
acting on directory entries. -/
inductive Primary where
  | node (f : Node → Bool)
  | sample (matching : List Entry → List Entry)

/-- pref.FilterOptions as far as the chain is concerned: `child` is the predicate by which ChildRegex / ChildGlob select
files (filtering/child.go). `dies` tells where the node filter's IsMatch panics (a client's own may, and a poly filter does on a
root that is a file). Filters are pure. -/
structure FilterOpts where
  primary : Option Primary := none
  child : Option (Entry → Bool) := none
  dies : Node → Bool := fun _ => false

/-- IsFilteringActive (pref/options-filter.go:69-74). -/
def FilterOpts.active (f : FilterOpts) : Bool := f.primary.isSome || f.child.isSome

/-- What a session's chain is made of. (builders.go:31-128, director.go:26-71.) -/
structure Setup where
  nav : Nav
  hiber : HiberOpts := {}
  filter : FilterOpts := {}
  sampling : Bool := false
  resume : Option Strategy := none

/-- The roles of the active plugins, in the order in which features collects them (director.go:38-60; nanny.IfActive
nanny-plugin.go:13-28; the resume plugin's role resume-plugin.go:30-41). -/
def Setup.activeRoles (S : Setup) : List Role :=
  (if S.hiber.active then [.hibernate] else [])
  ++ (if S.nav.sub = .directoriesWithFiles ∧ S.filter.active = false then [.nanny] else [])
  ++ (if S.filter.active then [.clientFilter] else [])
  ++ (if S.sampling then [.sampler] else [])
  ++ (match S.resume with
      | none => []
      | some .fastward => [.fastward]
      | some _ => [.undefined])

/-- The roles under which plugins decorate, in the order of their Init (builders.go:107-119); the resume plugin's own Init
decorates nothing (resume-plugin.go:43-47). -/
def Setup.decorators (S : Setup) : List Role :=
  S.activeRoles.filter (fun r => !decide (r = .fastward) && !decide (r = .undefined))

/-- The guardian when navigation starts: arrange and the plugins' Init (builders.go:92-119), then the fastward strategy's
init, which runs for the strategies Fastward and Undefined (controller.go:61-66, 77-83, strategy-fastward.go:103). -/
def Setup.guard (S : Setup) : Guard :=
  let g := S.decorators.foldl Guard.decorate (Guard.fresh.arrange S.activeRoles (manifest S.activeRoles))
  match S.resume with
  | some .fastward | some .undefined => g.decorate .fastward
  | _ => g

/-! ### The world around the navigator -/

/-- enums.Hibernation (enums/hibernation-en.go). -/
inductive Hib where
  | undefined | pending | active | retired
  deriving DecidableEq, Repr, Inhabited

/-- A notification of one of the six life-cycle events; Begin carries the tree path. (life/events.go:19-26, core/core-defs.go:91-103.) -/
inductive Note where
  | begin (tree : Path)
  | ended
  | descend (p : Path) (isDir : Bool)
  | ascend (p : Path) (isDir : Bool)
  | wake
  | sleep
  deriving DecidableEq, Repr, Inhabited

/-- The six life-cycle events (life/events.go:19-26). -/
inductive LifeEv where
  | begin | ended | descend | ascend | wake | sleep
  deriving DecidableEq, Repr, Inhabited

/-- The event of a notification. (life/events.go:19-26.) -/
def Note.ev : Note → LifeEv
  | .begin _ => .begin
  | .ended => .ended
  | .descend .. => .descend
  | .ascend .. => .ascend
  | .wake => .wake
  | .sleep => .sleep

/-- core.ActiveState (core/core-defs.go), the fields filled by vapour.active (navigation-vapour.go:45-65). -/
structure Active where
  tree : Path
  sub : Subscription
  hibernation : Hib
  currentPath : Path
  isDir : Bool
  depth : Int
  metrics : Metrics

/-- A handler call as recorded by the model: the node as given, the metrics at that moment, and the answer. (guardian.go:39-49.) -/
structure Hit where
  parcel : Parcel
  seen : Metrics
  reply : Reply

/-- What the client side lives to see, in order: notifications and handler calls. (life/events.go:113-119, guardian.go:39-49.) -/
inductive Obs where
  | note (n : Note)
  | call (n : Node)
  deriving DecidableEq, Repr

/-- The client's side of a session: the handler, all listeners of an event together, the skip handler, and the panic
handler, which is given what the state saved by Rescuer.Save would be (navigator-agent.go:204-210, pref/defaults.go:89-91).
`κ` is the state of all of that. -/
structure Client (κ : Type) where
  handler : κ → Parcel → κ × Reply
  listen : κ → Note → κ
  skip : κ → Node → Option Err → κ × Skip × Option Err
  panics : κ → Active → κ × Rescue

/-- Everything that changes while the navigator runs. `tape`, `hits`, `steps` and `saves` are ghosts: the
notifications that were delivered and the handler calls, the handler calls in detail, the links that ran and the node they
ran for, the states given to the panic handler.
(mediator.go:18-31, guardian.go:14-18, internal/enclave/supervisor.go:8-16, life/events.go:11-17.) -/
structure World (κ : Type) where
  client : κ
  metrics : Metrics
  hib : Hib
  guard : Guard
  muted : LifeEv → Bool
  tape : List Obs := []
  hits : List Hit := []
  steps : List (Role × Node) := []
  saves : List Active := []

variable {κ : Type}

/-- NotificationCtrl.Dispatch followed by the call (life/events.go:113-119). -/
def World.publish (C : Client κ) (w : World κ) (n : Note) : World κ :=
  if w.muted n.ev then w
  else { w with client := C.listen w.client n, tape := w.tape ++ [.note n] }

/-- Controls.UnmuteAll (life/events.go:75-81): Wake is not among them. -/
def unmuteAll (m : LifeEv → Bool) : LifeEv → Bool
  | .wake => m .wake
  | _ => false

/-- anchor.Next (guardian.go:39-49). -/
def anchorLink (C : Client κ) : Link (World κ) := fun w p =>
  let m := w.metrics.tick (if p.node.isDir then .dirsInvoked else .filesInvoked)
  let r := C.handler w.client p
  ({ w with client := r.1, metrics := m, hits := w.hits ++ [⟨p, m, r.2⟩], tape := w.tape ++ [.call p.node] }, p,
    match r.2 with | .ok e => .go false e | .panic => .panic)

/-- Trigger filters after simple.init (hibernate-simple-profile.go:25-57). -/
def HiberOpts.wake (h : HiberOpts) (n : Node) : Bool := match h.wakeAt with | some f => f n | none => true
/-- The default of the sleep filter matches nothing (hibernate-simple-profile.go:42-57). -/
def HiberOpts.sleep (h : HiberOpts) (n : Node) : Bool := match h.sleepAt with | some f => f n | none => false
/-- launch (hibernate-defs.go:61-67). -/
def HiberOpts.launch (h : HiberOpts) : Hib := if h.wakeAt.isSome then .pending else .active

/-- Whether the trigger consulted in a state panics on a node: wake while pending, sleep while active
(hibernate-simple-profile.go:78, 92). -/
def HiberOpts.dies (h : HiberOpts) (s : Hib) (n : Node) : Bool :=
  match s with
  | .pending => h.wakeDies n
  | .active => h.sleepDies n
  | _ => false

/-- The hibernation plugin's Next, the trigger not panicking (hibernate-simple-profile.go:68-111). -/
def hiberNext (C : Client κ) (h : HiberOpts) : Link (World κ) := fun w p =>
  match w.hib with
  | .pending =>
    if h.wake p.node then ({ (w.publish C .wake) with hib := .active }, p, .go h.inclusiveWake none)
    else (w, p, .go false none)
  | .active =>
    if h.sleep p.node then ({ (w.publish C .sleep) with hib := .retired }, p, .go h.inclusiveSleep none)
    else (w, p, .go true none)
  | .retired => (w, p, .go false (some .skipAll))
  | .undefined => (w, p, .panic)

/-- The hibernation plugin's Next (hibernate-plugin.go:35-39, hibernate-simple-profile.go:68-111). -/
def hiberLink (C : Client κ) (h : HiberOpts) : Link (World κ) := fun w p =>
  if h.dies w.hib p.node then (w, p, .panic) else hiberNext C h w p

/-- The sort hook on bare entries (Contents.Sort, contents.go:65-85). -/
def Nav.sortEntries (c : Nav) (l : List Entry) : List Entry :=
  (c.sort (l.map (fun e => Tree.node e none [] [] []))).map Tree.entry

/-- The nanny plugin's Next (nanny-plugin.go:35-44); without contents v.cargo is nil (navigation-vapour.go:67-68). -/
def nannyLink (S : Setup) : Link (World κ) := fun w p =>
  match p.node.cargo with
  | none => (w, p, .panic)
  | some (fs, _) =>
    let files := S.nav.sortEntries fs
    ({ w with metrics := w.metrics.times .childFound files.length }, { p with children := files }, .go true none)

/-- nannyScheme.next (scheme-nanny.go:37-50). -/
def childScheme (S : Setup) (f : Entry → Bool) : Link (World κ) := fun w p =>
  match p.node.cargo with
  | none => (w, p, .panic)
  | some (fs, _) =>
    let files := S.nav.sortEntries fs
    let matching := files.filter f
    let m := (w.metrics.times .childFound matching.length).times .childFilteredOut (files.length - matching.length)
    ({ w with metrics := m }, { p with children := matching }, .go true none)

/-- matchNext (scheme-custom.go:27-41) and samplerScheme.next (scheme-sampler.go:41-61). -/
def primaryScheme (P : Primary) : Link (World κ) := fun w p =>
  match P with
  | .node f =>
    let m := f p.node
    (if m then w
      else { w with metrics := w.metrics.tick (if p.node.isDir then .dirsFilteredOut else .filesFilteredOut) },
      p, .go m none)
  | .sample matching =>
    if p.node.scope &&& Scope.tree = 0#32 then (w, p, .go true none)
    else
      let result := !(matching [⟨p.node.name, p.node.isDir, none⟩]).isEmpty
      match p.node.cargo with
      | none => (w, p, .panic)
      | some (fs, _) =>
        ({ w with metrics := w.metrics.times (if result then .childFound else .childFilteredOut) fs.length }, p,
          .go result none)

/-- The filter plugin's Next, the filter not panicking (filter-plugin.go:45-49, schemes.go:27-44, scheme-hybrid.go:54-72): the
child scheme runs only if the primary one accepts, and has no say in whether the next link runs. -/
def schemeLink (S : Setup) : Link (World κ) := fun w p =>
  match S.filter.primary, S.filter.child with
  | some P, some f =>
    match primaryScheme P w p with
    | (w1, p1, .go true _) =>
      (match childScheme S f w1 p1 with
        | (w2, p2, .go _ e2) => (w2, p2, .go true e2)
        | (w2, p2, .panic) => (w2, p2, .panic))
    | r => r
  | some P, none => primaryScheme P w p
  | none, some f => childScheme S f w p
  | none, none => (w, p, .panic)

/-- The filter plugin's Next (filter-plugin.go:45-49): a panic of the filter's IsMatch (scheme-custom.go:30) comes before anything
is counted. -/
def filterLink (S : Setup) : Link (World κ) := fun w p =>
  if S.filter.dies p.node then (w, p, .panic) else schemeLink S w p

/-- FastwardFilter.IsMatch (strategy-fastward.go:41-43); `none` is the nil dereference of node.Parent on the root. The
filter's name is the last segment of the saved path and its parent the rest, "." when there is no rest. -/
def fastwardMatch (target : Path) (n : Node) : Option Bool :=
  if n.name = target.getLast?.getD "" then
    match n.parent with
    | none => none
    | some q => some (decide (q.path = target.dropLast) || decide (target.dropLast = []))
  else some false

/-- fastwardStrategy.Next (strategy-fastward.go:117-129). -/
def fastwardLink (target : Path) : Link (World κ) := fun w p =>
  match fastwardMatch target p.node with
  | none => (w, p, .panic)
  | some false => (w, p, .go false none)
  | some true => ({ w with guard := w.guard.unwind .fastward, muted := unmuteAll w.muted }, p, .go true none)

/-- The link stored under a role. (guardian.go:118-130, 154.) -/
def linkOf (S : Setup) (C : Client κ) (target : Path) : Role → Option (Link (World κ))
  | .anchor => some (anchorLink C)
  | .hibernate => some (hiberLink C S.hiber)
  | .nanny => some (nannyLink S)
  | .clientFilter => some (filterLink S)
  | .sampler => some (fun w p => (w, p, .go true none))   -- sampling/controller.go:23-25
  | .fastward => some (fastwardLink target)
  | .undefined => none

/-- g.container.chain[role] (guardian.go:154). -/
def World.link (S : Setup) (C : Client κ) (target : Path) (w : World κ) (r : Role) : Option (Link (World κ)) :=
  if r ∈ w.guard.chain then linkOf S C target r else none

/-- guardian.Invoke (guardian.go:92-112, 148-162); the steps ghost is completed after the loop. -/
def World.invoke (S : Setup) (C : Client κ) (target : Path) (w : World κ) (n : Node) : World κ × Reply :=
  match w.guard.positions with
  | none =>
    let r := anchorLink C w ⟨n, []⟩
    ({ r.1 with steps := r.1.steps ++ [(.anchor, n)] }, r.2.2.reply)
  | some ps =>
    let w0 := { w with guard := { w.guard with positions := some ps.list.1 } }
    match iterate (World.link S C target) ps.list.2 w0 ⟨n, []⟩ with
    | (w1, _, rep, ran) => ({ w1 with steps := w1.steps ++ ran.map (fun r => (r, n)) }, rep)

/-- mediator.metrics (mediator.go:39-43, 59): what is persisted. -/
def Metrics.persisted (m : Metrics) : Metrics := fun k =>
  match k with
  | .filesInvoked | .dirsInvoked | .childFound => m k
  | _ => none

/-- Everything the navigator calls out to. `tree` is mediator.tree, `target` the saved current path of a resume.
(mediator.go:75-79, 160-175, navigator-agent.go:109-146.) -/
def Setup.env (S : Setup) (C : Client κ) (tree target : Path) : Env (World κ) where
  descend w p d := w.publish C (.descend p d)
  ascend w p d := w.publish C (.ascend p d)
  invoke := World.invoke S C target
  ask w n re := let r := C.skip w.client n re; ({ w with client := r.1 }, r.2)
  rescue w cur depth :=
    let a : Active :=   -- author.go:31-34, navigation-vapour.go:45-65
      { tree := tree, sub := S.nav.sub, hibernation := .retired, currentPath := cur.path, isDir := cur.isDir,
        depth := depth, metrics := w.metrics.persisted }
    let r := C.panics w.client a
    ({ w with client := r.1, saves := w.saves ++ [a] }, r.2)

/-- The metrics once mediator and plugins have registered theirs (mediator.go:39-43, nanny-plugin.go:46-50,
filter-plugin.go:51-57). -/
def Setup.metrics (S : Setup) : Metrics :=
  let m := Metrics.many (fun _ => none) [.filesInvoked, .dirsInvoked, .childFound]
  let m := if .nanny ∈ S.decorators then m.many [.childFound] else m
  if .clientFilter ∈ S.decorators then
    m.many [.dirsFilteredOut, .filesFilteredOut, .childFound, .childFilteredOut] else m

/-- The world when the navigator starts. Resume strategies Fastward and Undefined have muted everything
(strategy-fastward.go:110-112, life/events.go:66-73). `carried` holds the metrics merged in by Bridge (mediator.go:104-108),
none for a primary session or a fastward resume. -/
def Setup.world (S : Setup) (x : κ) (carried : Metrics) : World κ :=
  { client := x
    metrics := S.metrics.merge carried
    hib := if S.hiber.active then S.hiber.launch else .undefined
    guard := S.guard
    muted := fun _ => S.resume = some .fastward ∨ S.resume = some .undefined }

end Traverse
