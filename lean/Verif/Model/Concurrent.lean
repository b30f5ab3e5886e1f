import Verif.Model.Resume
/-
Concurrent sessions and composites: synchronise.go, factories.go, composites.go, guardian.go (Swap). The worker pool itself
(github.com/snivilised/pants) is third party: its documented contract is modelled as a state machine.
-/
namespace Traverse
variable {κ : Type}

/-! ### The navigator's side -/

/-- The client that Swap puts in the place of the handler (synchronise.go:64-76, guardian.go:55-60, 164-166): it sends the node
to the pool and returns nil. Its calls are the calls of the anchor, recorded in `hits`: they are what is sent. What the handler
does in the meantime to the state of listeners and the other handlers is left out; see C47_shared. -/
def enqueue (k : κ) (_ : Parcel) : κ × Reply := (k, .ok none)

/-- pants.WithSize and pants.WithInput (synchronise.go:87-88). -/
structure PoolSize where
  workers : Nat
  queue : Nat
  deriving DecidableEq, Repr

/-- A session on its way: what Navigate amounts to, what it sends to the pool, how large the pool is and which handler its
workers call. (synchronise.go:44-50.) -/
structure Launch (κ : Type) where
  report : Report κ
  size : PoolSize
  handler : κ → Parcel → κ × Reply

/-- What is sent to the pool, in order. (synchronise.go:64-76.) -/
def Launch.sent (l : Launch κ) : List Parcel := l.report.hits.map Hit.parcel

/-- The sizes asked for (synchronise.go:87-88), nothing of them for a session that could not be built. -/
def Built.size (b : Built κ) : PoolSize :=
  match b with
  | .ready _ o => ⟨o.concurrency.now, o.concurrency.inputSize⟩
  | _ => ⟨0, 0⟩

/-- concurrent.Navigate (synchronise.go:52-109) of a primary session; `pool` is the error of the pool's creation. Without a
pool nothing is navigated; Begin and End are published all the same (session.go:17-28). -/
def Built.launch (b : Built κ) (h : κ → Parcel → κ × Reply) (pool : Option Err) (disk : Disk) (tree : Path) (x : κ) : Launch κ :=
  { report :=
      match b, pool with
      | .ready S o, some e =>
        let C := o.client enqueue
        let w := (S.world x (fun _ => none)).publish C (.begin tree)
        let w := w.publish C .ended
        { verdict := .unbuilt (.pool e), client := w.client, tape := w.tape, metrics := w.metrics, complete := true }
      | b, _ => b.navigate enqueue disk tree x
    size := b.size
    handler := h }

/-- The same of a resume (with Ignite and IsComplete of the strategy, controller.go:21-24, strategy-spawn.go, strategy-fastward.go). -/
def Built.relaunch (b : Built κ) (strategy : Strategy) (h : κ → Parcel → κ × Reply) (pool : Option Err) (disk : Disk) (a : Active)
    (x : κ) : Launch κ :=
  { report :=
      match b, pool with
      | .ready S o, some e =>
        let C := o.client enqueue
        let w := (S.world x (fun _ => none)).publish C (.begin a.tree)
        let w := w.publish C .ended
        { verdict := .unbuilt (.pool e), client := w.client, tape := w.tape, metrics := w.metrics,
          complete := !decide (strategy = .spawn) }
      | b, _ => b.resume strategy enqueue disk a x
    size := b.size
    handler := h }

/-- age.Run(wg).Configure().Extent(age.Prime(facade, settings...)).Navigate(ctx). (factories.go:20-71.) -/
def runPrime (P : Platform κ) (facade : Facade κ) (settings : List (Option (Setting κ))) (pool : Option Err) (disk : Disk) (x : κ) :
    Launch κ :=
  match facade with
  | .relic r => (buildPrimary P facade settings).launch (r.handler.getD (fun k _ => (k, .panic))) pool disk [] x
  | .using u => (buildPrimary P facade settings).launch (u.handler.getD (fun k _ => (k, .panic))) pool disk u.tree x

/-- age.Run(wg).Configure().Extent(age.Resume(facade, settings...)).Navigate(ctx). (factories.go:20-71.) -/
def runResume (P : Platform κ) (facade : Facade κ) (settings : List (Option (Setting κ)))
    (files : String → Except Err Json) (pool : Option Err) (disk : Disk) (x : κ) : Launch κ :=
  match facade with
  | .using u =>
    ⟨{ verdict := .unbuilt .wrongResumeFacade, client := x, tape := [] }, ⟨0, 0⟩, u.handler.getD (fun k _ => (k, .panic))⟩
  | .relic r =>
    match resumePlatform P r settings (files r.from) with
    | .error e => ⟨{ verdict := .unbuilt e, client := x, tape := [] }, ⟨0, 0⟩, r.handler.getD (fun k _ => (k, .panic))⟩
    | .ok (o, a) =>
      (buildRest P a.sub (some r.strategy) o.afterwards).relaunch r.strategy
        (r.handler.getD (fun k _ => (k, .panic))) pool disk a x

/-! ### The pool's side -/

/-- The pool and the navigator feeding it. `todo` is what the navigator has still to send (it blocks in between), `queue` the
buffer of the input channel, `hand` what the goroutine that reads the channel holds, `given` what workers have been given and
not begun, `busy` the handler calls under way. `called` and `outs` record the calls in the order of their beginning and the
TraverseOutputs; `client` is the state of the handler. (synchronise.go:44-50, 77-96; core/async.go.) -/
structure Pool (κ : Type) where
  todo : List Parcel
  queue : List Parcel := []
  hand : Option Parcel := none
  given : List Parcel := []
  busy : List Parcel := []
  called : List Parcel := []
  outs : List (Parcel × Option Err) := []
  client : κ

/-- Navigation begins. (synchronise.go:102-108.) -/
def Launch.start (l : Launch κ) (k : κ) : Pool κ := { todo := l.sent, client := k }

/-- One step of one of the goroutines. The channel is a Go channel: a send goes through if the buffer has room, or directly to a
waiting reader (`handover`), the only way if there is no buffer. The reader waits for a free worker. Workers work in any
order. The worker's function is synchronise.go:78-86; a handler that panics takes the process down, which is no step here. -/
inductive Pool.Step (size : PoolSize) (h : κ → Parcel → κ × Reply) : Pool κ → Pool κ → Prop
  | send {s p ps} (ht : s.todo = p :: ps) (hq : s.queue.length < size.queue) :
      Step size h s { s with todo := ps, queue := s.queue ++ [p] }
  | handover {s p ps} (ht : s.todo = p :: ps) (hq : s.queue = []) (hh : s.hand = none) :
      Step size h s { s with todo := ps, hand := some p }
  | take {s p q} (hq : s.queue = p :: q) (hh : s.hand = none) :
      Step size h s { s with queue := q, hand := some p }
  | give {s p} (hh : s.hand = some p) (hw : s.given.length + s.busy.length < size.workers) :
      Step size h s { s with hand := none, given := s.given ++ [p] }
  | begin {s p l r} (hg : s.given = l ++ p :: r) :
      Step size h s { s with given := l ++ r, busy := s.busy ++ [p], called := s.called ++ [p] }
  | finish {s p l r k e} (hb : s.busy = l ++ p :: r) (hr : h s.client p = (k, .ok e)) :
      Step size h s { s with busy := l ++ r, outs := s.outs ++ [(p, e)], client := k }

/-- A schedule of `n` steps. (synchronise.go:52-109.) -/
inductive Pool.Steps (size : PoolSize) (h : κ → Parcel → κ × Reply) : Nat → Pool κ → Pool κ → Prop
  | refl {s} : Steps size h 0 s s
  | tail {n s t u} (a : Steps size h n s t) (b : Pool.Step size h t u) : Steps size h (n + 1) s u

/-- No work remains. (synchronise.go:53-58.) -/
structure Pool.Drained (s : Pool κ) : Prop where
  todo : s.todo = []
  queue : s.queue = []
  hand : s.hand = none
  given : s.given = []
  busy : s.busy = []

/-! ### Composites -/

/-- Walk() or Run(wg) (factories.go:8-18). The wait group is known by a number. -/
inductive Pace where
  | walk
  | run (wg : Nat)
  deriving DecidableEq, Repr

/-- Prime or Resume (traverse-api.go, extent.go). -/
inductive Extent where
  | prime
  | resume
  deriving DecidableEq, Repr

/-- What a factory, Configure() and Extent() make (factories.go:20-71): a navigator. -/
structure Navigator (κ : Type) where
  pace : Pace
  extent : Extent
  facade : Facade κ
  settings : List (Option (Setting κ))

/-- Scenario (composites.go:19-27). -/
abbrev Scenario (κ : Type) := Facade κ → List (Option (Setting κ)) → Navigator κ

/-- slowPrime, slowResume, fastPrime, fastResume (composites.go:210-236). -/
def slowPrime : Scenario κ := fun f s => ⟨.walk, .prime, f, s⟩
/-- Composite of Walk and Resume (composites.go:210-236). -/
def slowResume : Scenario κ := fun f s => ⟨.walk, .resume, f, s⟩
/-- Composite of Run and Prime (composites.go:210-236). -/
def fastPrime (wg : Nat) : Scenario κ := fun f s => ⟨.run wg, .prime, f, s⟩
/-- Composite of Run and Resume (composites.go:210-236). -/
def fastResume (wg : Nat) : Scenario κ := fun f s => ⟨.run wg, .resume, f, s⟩

/-- Hydra (composites.go:73-91). -/
def hydra (isWalk isPrime : Bool) (wg : Nat) : Scenario κ :=
  if isWalk && isPrime then slowPrime
  else if isWalk && !isPrime then slowResume
  else if !isWalk && isPrime then fun f s => fastPrime wg f s
  else fun f s => fastResume wg f s
/-- Hare (composites.go:122-132). -/
def hare (isPrime : Bool) (wg : Nat) : Scenario κ :=
  if isPrime then fun f s => fastPrime wg f s else fun f s => fastResume wg f s
/-- Tortoise (composites.go:163-169). -/
def tortoise (isPrime : Bool) : Scenario κ := if isPrime then slowPrime else slowResume
/-- Goldfish (composites.go:200-208). -/
def goldfish (isWalk : Bool) (wg : Nat) : Scenario κ := if isWalk then slowPrime else fun f s => fastPrime wg f s

/-- The outside world of a session. (scaffold.go:26-97, synchronise.go:77-100.) -/
structure Outside (κ : Type) where
  platform : Platform κ
  files : String → Except Err Json
  pool : Option Err
  disk : Disk

/-- A session walked to its end, or a concurrent one. (driver.go:29-37.) -/
inductive Outcome (κ : Type) where
  | walked (r : Report κ)
  | ran (l : Launch κ)

/-- Navigate (factories.go:26-71, driver.go:29-37). -/
def Navigator.navigate (n : Navigator κ) (out : Outside κ) (x : κ) : Outcome κ :=
  match n.pace, n.extent with
  | .walk, .prime => .walked (walkPrime out.platform n.facade n.settings out.disk x)
  | .walk, .resume => .walked (walkResume out.platform n.facade n.settings out.files out.disk x)
  | .run _, .prime => .ran (runPrime out.platform n.facade n.settings out.pool out.disk x)
  | .run _, .resume => .ran (runResume out.platform n.facade n.settings out.files out.pool out.disk x)

end Traverse
