import Verif.Model.Resume
/-
Navigate called more than once on one navigator: driver.go, session.go, synchronise.go. What is kept between two calls is
everything that was built: mediator with its periscope, supervisor, guardian, the plugins' state (hibernation), the life-cycle
controls and, for a spawn resume, the strategy's flag.
-/
namespace Traverse
variable {κ : Type}

/-- What is kept between two calls of Navigate: the periscope's depth and the world (mediator.go:18-31), the flag of a spawn
strategy (strategy-spawn.go:16-20). -/
structure Kept (κ : Type) where
  depth : Int
  world : World κ
  complete : Bool := false

/-- The ghosts of the model start anew with each call (there is nothing in the code that corresponds to them; driver.go:29-37). -/
def World.clean (w : World κ) : World κ := { w with tape := [], hits := [], steps := [], saves := [] }

/-- What Navigate of a session amounts to, from where navigation ended (driver.go:29-37). -/
def Kept.report (C : Client κ) (f : Final) (complete : Bool) (s : St (World κ)) : Report κ × Kept κ :=
  match f with
  | .panic =>
    ({ verdict := .panic, client := s.ext.client, tape := s.ext.tape, hits := s.ext.hits }, ⟨s.depth, s.ext, complete⟩)
  | .done e =>
    let w := s.ext.publish C .ended
    ({ verdict := .done e, client := w.client, tape := w.tape, hits := w.hits, metrics := w.metrics, complete := complete },
      ⟨s.depth, w, complete⟩)

/-- driver.Navigate of a sequential primary session, from what earlier calls left (driver.go:29-37, session.go:17-43,
mediator.go:114-135). -/
def navigateTurn (S : Setup) (o : Options κ) (h : κ → Parcel → κ × Reply) (tree : Path) (disk : Disk) (k : Kept κ) :
    Report κ × Kept κ :=
  let C := o.client h
  let r := runTop S o C disk tree [] ⟨k.depth, k.world.clean.publish C (.begin tree), []⟩
  Kept.report C r.1 true r.2

/-- driver.Navigate of a sequential resumed session, from what earlier calls left. Ignite of fastward mutes everything and its
init decorates the guardian (strategy-fastward.go:77-112, life/events.go:66-73); for spawn, Bridge adds the saved depth and the
saved metrics to what is there (strategy-spawn.go:31-44, mediator.go:104-108, periscope.go:28-30, supervisor.go:24-26), and crown
reports ErrDetectedSpawnStackOverflow, here `overflow`, when it arrives at the tree and the flag is set already
(strategy-spawn.go:62-71). There is no result then. -/
def resumeTurn (overflow : Err) (S : Setup) (o : Options κ) (h : κ → Parcel → κ × Reply) (strategy : Strategy) (a : Active)
    (disk : Disk) (k : Kept κ) : Report κ × Kept κ :=
  let C := o.client h
  match strategy with
  | .spawn =>
    let w := k.world.clean.publish C (.begin a.tree)
    let r := crown S.nav (S.env C a.tree a.currentPath) o.fault (statOf S.nav o disk) disk a.tree a.currentPath.reverse true
      ⟨k.depth + a.depth, { w with metrics := w.metrics.merge a.metrics }, []⟩
    if k.complete then
      if r.2.1 then
        let q := Kept.report C (.done (some overflow)) true r.2.2
        ({ q.1 with metrics := fun _ => none }, q.2)
      else Kept.report C r.1 true r.2.2
    else Kept.report C r.1 r.2.1 r.2.2
  | _ =>
    let w := { k.world.clean with muted := fun _ => true }.publish C (.begin a.tree)
    let r := runTop S o C disk a.tree a.currentPath ⟨k.depth, { w with guard := w.guard.decorate .fastward }, []⟩
    Kept.report C r.1 true r.2

/-- One call of `turn` after the other. (driver.go:29-37.) -/
def turnsOf (turn : Disk → Kept κ → Report κ × Kept κ) : List Disk → Kept κ → List (Report κ)
  | [], _ => []
  | d :: ds, k => (turn d k).1 :: turnsOf turn ds (turn d k).2

/-- Navigate called once for every disk on the navigator age.Walk().Configure().Extent(age.Prime(using, settings...)). A session
that was not built never changes, but its listeners may (director.go:26-71, synchronise.go:117-131). -/
def walkPrimeTimes (P : Platform κ) (u : Using κ) (settings : List (Option (Setting κ))) (disks : List Disk) (x : κ) :
    List (Report κ) :=
  match buildPrimary P (.using u) settings with
  | .ready S o =>
    turnsOf (navigateTurn S o (u.handler.getD (fun k _ => (k, .ok none))) u.tree) disks ⟨0, S.world x (fun _ => none), false⟩
  | _ => sessions (fun d y => walkPrime P (.using u) settings d y) disks x
where
  /-- New sessions one after the other, each with the client as the one before has left it. (driver.go:29-37.) -/
  sessions (session : Disk → κ → Report κ) : List Disk → κ → List (Report κ)
    | [], _ => []
    | d :: ds, x => session d x :: sessions session ds (session d x).client

/-- The guardian when the plugins are initialised, before the strategy's init (builders.go:92-119). -/
def Setup.arranged (S : Setup) : Guard :=
  S.decorators.foldl Guard.decorate (Guard.fresh.arrange S.activeRoles (manifest S.activeRoles))

/-- The same of age.Walk().Configure().Extent(age.Resume(relic, settings...)). The guardian of a fastward strategy is decorated by
each call's init, the first one included (strategy-fastward.go:103). -/
def walkResumeTimes (overflow : Err) (P : Platform κ) (r : Relic κ) (settings : List (Option (Setting κ)))
    (files : String → Except Err Json) (disks : List Disk) (x : κ) : List (Report κ) :=
  match resumePlatform P r settings (files r.from) with
  | .error _ => walkPrimeTimes.sessions (fun d y => walkResume P (.relic r) settings files d y) disks x
  | .ok (o₀, a) =>
    match buildRest P a.sub (some r.strategy) o₀.afterwards with
    | .ready S o =>
      turnsOf (resumeTurn overflow S o (r.handler.getD (fun k _ => (k, .panic))) r.strategy a) disks
        ⟨0, { S.world x (fun _ => none) with guard := S.arranged, muted := fun _ => false }, false⟩
    | _ => walkPrimeTimes.sessions (fun d y => walkResume P (.relic r) settings files d y) disks x

end Traverse
