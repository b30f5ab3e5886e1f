import Verif.Model.Mortal
import Verif.Model.Resume
/-
Sessions, primary and resumed, of clients any of whose callbacks may panic. With callbacks that do not (`Frail.none`) they are
`walkPrime` and `walkResume` (`Verif.Props.Frail`, C67_prime and C67_resume).
-/
namespace Traverse
variable {σ κ : Type}

/-- Which of a client's callbacks panic, depending on its state, and the state the client is left in then. (pref/options-life.go:10-70,
pref/defects.go:13-53, pref/options-hooks.go.) -/
structure Frail (κ : Type) where
  /-- a listener of the notification -/
  listener : κ → Note → Option κ := fun _ _ => none
  /-- a hook (or the client's own sample filter), when called for the node with this path -/
  hooks : κ → Path → Bool → Bool := fun _ _ _ => false
  /-- the QueryStatus hook, called for the root -/
  query : κ → Path → Bool := fun _ _ => false
  /-- the fault handler -/
  fault : κ → Path → Err → Option κ := fun _ _ _ => none
  /-- the skip handler -/
  skip : κ → Node → Option Err → Option κ := fun _ _ _ => none
  /-- the panic handler -/
  panics : κ → Active → Option κ := fun _ _ => none

/-- Dispatch and call of the listeners: does one of them panic? A muted notification reaches none (life/events.go:113-119). -/
def World.notify (C : Client κ) (F : Frail κ) (w : World κ) (n : Note) : World κ × Bool :=
  if w.muted n.ev then (w, false)
  else
    match F.listener w.client n with
    | some k => ({ w with client := k, tape := w.tape ++ [.note n] }, true)
    | none => (w.publish C n, false)

/-- The notification the hibernation link is about to send (hibernate-simple-profile.go:78-79, 92-93). -/
def HiberOpts.note (h : HiberOpts) (s : Hib) (n : Node) : Option Note :=
  match s with
  | .pending => if h.wake n then some .wake else none
  | .active => if h.sleep n then some .sleep else none
  | _ => none

/-- The hibernation plugin's Next, as `hiberLink`: the listeners are called before the transition
(hibernate-simple-profile.go:78-80, 92-94). -/
def hiberLinkF (C : Client κ) (F : Frail κ) (h : HiberOpts) : Link (World κ) := fun w p =>
  if h.dies w.hib p.node then (w, p, .panic)
  else
    match h.note w.hib p.node with
    | none => hiberNext C h w p
    | some n =>
      match w.notify C F n with
      | (w', true) => (w', p, .panic)
      | (_, false) => hiberNext C h w p

/-- The link stored under a role. (guardian.go:118-130, 154.) -/
def linkOfF (S : Setup) (C : Client κ) (F : Frail κ) (target : Path) : Role → Option (Link (World κ))
  | .hibernate => some (hiberLinkF C F S.hiber)
  | r => linkOf S C target r

/-- g.container.chain[role] (guardian.go:154). -/
def World.linkF (S : Setup) (C : Client κ) (F : Frail κ) (target : Path) (w : World κ) (r : Role) : Option (Link (World κ)) :=
  if r ∈ w.guard.chain then linkOfF S C F target r else none

/-- guardian.Invoke, as `World.invoke` (guardian.go:92-112, 148-162). -/
def World.invokeF (S : Setup) (C : Client κ) (F : Frail κ) (target : Path) (w : World κ) (n : Node) : World κ × Reply :=
  match w.guard.positions with
  | none => World.invoke S C target w n
  | some ps =>
    let w0 := { w with guard := { w.guard with positions := some ps.list.1 } }
    match iterate (World.linkF S C F target) ps.list.2 w0 ⟨n, []⟩ with
    | (w1, _, rep, ran) => ({ w1 with steps := w1.steps ++ ran.map (fun r => (r, n)) }, rep)

/-- Everything the navigator calls out to in a session, as `Setup.env`, with callbacks that may panic. (mediator.go:75-79,
160-176, navigator-agent.go:109-146.) -/
def Setup.mortal (S : Setup) (C : Client κ) (F : Frail κ) (tree target : Path) : Mortal (World κ) where
  descend w p d := w.notify C F (.descend p d)
  ascend w p d := w.notify C F (.ascend p d)
  hooks w p d := F.hooks w.client p d
  invoke := World.invokeF S C F target
  ask w n re :=
    match F.skip w.client n re with
    | some k => ({ w with client := k }, none)
    | none => let r := C.skip w.client n re; ({ w with client := r.1 }, some (r.2.1, r.2.2))
  rescue w cur depth :=
    let a : Active :=
      { tree := tree, sub := S.nav.sub, hibernation := .retired, currentPath := cur.path, isDir := cur.isDir,
        depth := depth, metrics := w.metrics.persisted }
    match F.panics w.client a with
    | some k => ({ w with client := k, saves := w.saves ++ [a] }, none)
    | none => let r := C.panics w.client a; ({ w with client := r.1, saves := w.saves ++ [a] }, some r.2)

/-- Top, as `top`: neither the QueryStatus hook nor the fault handler is called under a recover
(navigator-agent.go:47-74). -/
def topM (c : Nav) (M : Mortal σ) (query : σ → Path → Bool) (fault : σ → Path → Err → σ × Option (Option Err)) (pre : Path)
    (treePath : Path) (r : RootStat) (s : MSt σ) : Final × MSt σ :=
  if query s.ext treePath then (.panic, s)
  else
    match r with
    | .error e =>
      let f := fault s.ext treePath e
      (match f.2 with | some e => .done e | none => .panic, { s with ext := f.1 })
    | .found t => let o := traverseM c M [] pre t s; (o.1.final, o.2)

/-- Defects.Fault.Accept (navigator-agent.go:53-58). -/
def Options.faultF (o : Options κ) (F : Frail κ) (w : World κ) (p : Path) (e : Err) : World κ × Option (Option Err) :=
  match F.fault w.client p e with
  | some k => ({ w with client := k }, none)
  | none => let r := o.fault w p e; (r.1, some r.2)

/-- mediator.Navigate / Spawn / Snooze, as `runTop` (mediator.go:90-100, 114-128, 142-154). -/
def runTopF (S : Setup) (o : Options κ) (C : Client κ) (F : Frail κ) (disk : Disk) (tree target path : Path)
    (s : MSt (World κ)) : Final × MSt (World κ) :=
  topM S.nav (S.mortal C F tree target) (fun w => F.query w.client) (o.faultF F) path.dropLast path (statOf S.nav o disk path) s

/-- driver.Navigate, as `Built.navigate` (driver.go:29-37, session.go:17-43, mediator.go:130-135, 156-158). Begin and End are
dispatched without a recover around them. -/
def Built.navigateF (b : Built κ) (F : Frail κ) (h : κ → Parcel → κ × Reply) (disk : Disk) (tree : Path) (x : κ) : Report κ :=
  match b with
  | .crash => { verdict := .panic, client := x, tape := [] }
  | .hades e => { verdict := .unbuilt e, client := x, tape := [] }
  | .stillborn e o =>
    let C := o.client h
    match F.listener x (.begin tree) with
    | some k => { verdict := .panic, client := k, tape := [.note (.begin tree)] }
    | none =>
      let k := C.listen x (.begin tree)
      match F.listener k .ended with
      | some k => { verdict := .panic, client := k, tape := [.note (.begin tree), .note .ended] }
      | none => { verdict := .unbuilt e, client := C.listen k .ended, tape := [.note (.begin tree), .note .ended], complete := true }
  | .ready S o =>
    let C := o.client h
    match (S.world x (fun _ => none)).notify C F (.begin tree) with
    | (w, true) => { verdict := .panic, client := w.client, tape := w.tape, hits := w.hits }
    | (w, false) =>
      let r := runTopF S o C F disk tree [] tree ⟨0, w, []⟩
      match r.1 with
      | .panic => { verdict := .panic, client := r.2.ext.client, tape := r.2.ext.tape, hits := r.2.ext.hits }
      | .done e =>
        match r.2.ext.notify C F .ended with
        | (w', true) => { verdict := .panic, client := w'.client, tape := w'.tape, hits := w'.hits }
        | (w', false) =>
          { verdict := .done e, client := w'.client, tape := w'.tape, hits := w'.hits, metrics := w'.metrics, complete := true }

/-- As `walkPrime`, for a client whose callbacks may panic. (factories.go:20-71.) -/
def walkPrimeF (P : Platform κ) (F : Frail κ) (facade : Facade κ) (settings : List (Option (Setting κ))) (disk : Disk) (x : κ) :
    Report κ :=
  match facade with
  | .relic r => (buildPrimary P facade settings).navigateF F (r.handler.getD (fun k _ => (k, .ok none))) disk [] x
  | .using u => (buildPrimary P facade settings).navigateF F (u.handler.getD (fun k _ => (k, .ok none))) disk u.tree x

/-- spawnStrategy.seed, as `seed` (strategy-spawn.go:98-114). -/
def seedM (c : Nav) (M : Mortal σ) (query : σ → Path → Bool) (fault : σ → Path → Err → σ × Option (Option Err))
    (stat : Path → RootStat) (parent : Path) : List String → MSt σ → Final × MSt σ
  | [], s => (.done none, s)
  | n :: ns, s =>
    match topM c M query fault parent (parent ++ [n]) (stat (parent ++ [n])) s with
    | (.done none, s) => seedM c M query fault stat parent ns s
    | r => r

/-- spawnStrategy.crown, as `crown`: here the hooks that read and sort a directory are not called under a recover
(strategy-spawn.go:59-95, 116-140). -/
def crownM (c : Nav) (M : Mortal σ) (query : σ → Path → Bool) (fault : σ → Path → Err → σ × Option (Option Err))
    (stat : Path → RootStat) (disk : Disk) (tree : Path) : List String → Bool → MSt σ → Final × Bool × MSt σ
  | [], _, s => if tree = [] then (.done none, true, s) else (.panic, false, s)
  | child :: rparent, inclusive, s =>
    if (child :: rparent).reverse = tree then (.done none, true, s)
    else if M.hooks s.ext rparent.reverse true then (.panic, false, s)
    else
      match following c disk rparent.reverse child inclusive with
      | .error e => (.done (some e), false, s)
      | .ok names =>
        match seedM c M query fault stat rparent.reverse names s with
        | (.done none, s) => crownM c M query fault stat disk tree rparent false s
        | (f, s) => (f, false, s)

/-- What is navigated in a resume, as `resumeRun` (strategy-fastward.go:136-138, strategy-spawn.go:31-44). -/
def resumeRunF (S : Setup) (o : Options κ) (C : Client κ) (F : Frail κ) (disk : Disk) (strategy : Strategy) (a : Active)
    (w : World κ) : Final × Bool × MSt (World κ) :=
  match strategy with
  | .spawn =>
    crownM S.nav (S.mortal C F a.tree a.currentPath) (fun w => F.query w.client) (o.faultF F) (statOf S.nav o disk) disk a.tree
      a.currentPath.reverse true ⟨a.depth, w, []⟩
  | _ =>
    let r := runTopF S o C F disk a.tree a.currentPath a.tree ⟨0, w, []⟩
    (r.1, true, r.2)

/-- Controller.Ignite, Navigate, Bye, as `Built.resume` (controller.go:21-24, 40-42, 77-83, driver.go:29-37). -/
def Built.resumeF (b : Built κ) (F : Frail κ) (strategy : Strategy) (h : κ → Parcel → κ × Reply) (disk : Disk) (a : Active)
    (x : κ) : Report κ :=
  match b with
  | .crash => { verdict := .panic, client := x, tape := [] }
  | .hades e => { verdict := .unbuilt e, client := x, tape := [] }
  | .stillborn e o =>
    if strategy = .spawn then
      let C := o.client h
      match F.listener x (.begin a.tree) with
      | some k => { verdict := .panic, client := k, tape := [.note (.begin a.tree)] }
      | none =>
        let k := C.listen x (.begin a.tree)
        match F.listener k .ended with
        | some k => { verdict := .panic, client := k, tape := [.note (.begin a.tree), .note .ended] }
        | none => { verdict := .unbuilt e, client := C.listen k .ended, tape := [.note (.begin a.tree), .note .ended] }
    else { verdict := .unbuilt e, client := x, tape := [], complete := true }
  | .ready S o =>
    let C := o.client h
    match (S.world x (if strategy = .spawn then a.metrics else fun _ => none)).notify C F (.begin a.tree) with
    | (w, true) => { verdict := .panic, client := w.client, tape := w.tape, hits := w.hits }
    | (w, false) =>
      match resumeRunF S o C F disk strategy a w with
      | (.panic, _, s) => { verdict := .panic, client := s.ext.client, tape := s.ext.tape, hits := s.ext.hits }
      | (.done e, complete, s) =>
        match s.ext.notify C F .ended with
        | (w', true) => { verdict := .panic, client := w'.client, tape := w'.tape, hits := w'.hits }
        | (w', false) =>
          { verdict := .done e, client := w'.client, tape := w'.tape, hits := w'.hits, metrics := w'.metrics, complete := complete }

/-- As `walkResume`, for a client whose callbacks may panic. (factories.go:20-71, scaffold.go:54-97.) -/
def walkResumeF (P : Platform κ) (F : Frail κ) (facade : Facade κ) (settings : List (Option (Setting κ)))
    (files : String → Except Err Json) (disk : Disk) (x : κ) : Report κ :=
  match facade with
  | .using _ => { verdict := .unbuilt .wrongResumeFacade, client := x, tape := [] }
  | .relic r =>
    match resumePlatform P r settings (files r.from) with
    | .error e => { verdict := .unbuilt e, client := x, tape := [] }
    | .ok (o, a) =>
      (buildRest P a.sub (some r.strategy) o.afterwards).resumeF F r.strategy
        (r.handler.getD (fun k _ => (k, .panic))) disk a x

end Traverse
