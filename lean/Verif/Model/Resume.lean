import Verif.Model.Session
import Verif.Model.Persist
/-
Resuming a saved session: scaffold.go, extent.go, internal/feat/resume (controller.go, resume-plugin.go, strategy-fastward.go,
strategy-spawn.go), mediator.go (Spawn, Bridge, Snooze).
-/
namespace Traverse
variable {κ σ : Type}

/-! ### Spawn -/

/-- What ReadDir says of a path. (strategy-spawn.go:116-124.) -/
def Disk.list (disk : Disk) (p : Path) : List FS × Option Err :=
  match disk p with
  | .error e => ([], some e)
  | .ok (.file _ _ re) => ([], re)
  | .ok (.dir _ _ re kids) => (kids, re)

/-- The entries of `l` whose name is not before the anchor, bytewise (strategy-spawn.go:125-131). -/
def fromAnchor (anchor : String) (inclusive : Bool) (l : List Tree) : List Tree :=
  l.filter (fun t => if inclusive then decide (anchor ≤ t.name) else decide (anchor < t.name))

/-- spawnStrategy.following (strategy-spawn.go:116-140), then the two calls of Sort and All (strategy-spawn.go:83-86,
contents.go:39-47, 65-85): the entries that remain to be visited in a directory, whatever the subscription. -/
def following (c : Nav) (disk : Disk) (parent : Path) (anchor : String) (inclusive : Bool) : Except Err (List String) :=
  match c.read (prepList c (disk.list parent).1) (disk.list parent).2 with
  | (_, some e) => .error e
  | (ents, none) =>
    let l := fromAnchor anchor inclusive ents
    let fs := c.sort (l.filter (fun t => !t.isDir))
    let ds := c.sort (l.filter (fun t => t.isDir))
    .ok ((if c.filesFirst then fs ++ ds else ds ++ fs).map Tree.name)

/-- spawnStrategy.seed (strategy-spawn.go:98-114): mediator.Spawn, that is top (mediator.go:90-100), on each entry until
one returns an error. -/
def seed (c : Nav) (env : Env σ) (fault : σ → Path → Err → σ × Option Err) (stat : Path → RootStat) (parent : Path) :
    List String → St σ → Final × St σ
  | [], s => (.done none, s)
  | n :: ns, s =>
    match top c env fault parent (parent ++ [n]) (stat (parent ++ [n])) s with
    | (.done none, s) => seed c env fault stat parent ns s
    | r => r

/-- spawnStrategy.crown (strategy-spawn.go:59-95); the current path is given by its segments, innermost first. The second
component is the strategy's `complete`. A saved path that does not lie below the tree makes crown recurse until the stack
is exhausted: `panic`. -/
def crown (c : Nav) (env : Env σ) (fault : σ → Path → Err → σ × Option Err) (stat : Path → RootStat) (disk : Disk)
    (tree : Path) : List String → Bool → St σ → Final × Bool × St σ
  | [], _, s => if tree = [] then (.done none, true, s) else (.panic, false, s)
  | child :: rparent, inclusive, s =>
    if (child :: rparent).reverse = tree then (.done none, true, s)
    else
      match following c disk rparent.reverse child inclusive with
      | .error e => (.done (some e), false, s)
      | .ok names =>
        match seed c env fault stat rparent.reverse names s with
        | (.done none, s) => crown c env fault stat disk tree rparent false s
        | (f, s) => (f, false, s)

/-! ### Building -/

/-- newResumePlatform with resumeExtent.options, resume.Load and buildForest (scaffold.go:54-97, 168-209, extent.go:91-111,
resume-plugin.go:53-65). `file` is what was read from the path Relic.From. Add-ons: Model/Addons. Relic.Validate is not
called by anyone. -/
def resumePlatform (P : Platform κ) (r : Relic κ) (settings : List (Option (Setting κ))) (file : Except Err Json) :
    Except BuildErr (Options κ × Active) :=
  match unmarshal P file with
  | .error e => .error (.load e)
  | .ok (o, saved) =>
    match bindOptions o settings with
    | (_, some e) => .error (.option e)
    | (o, none) =>
      match (match r.forest with | some f => f saved.active.tree | none => some (false, false)) with
      | none => .error .nilForest
      | some (t, rr) =>
        if t ≠ saved.traverseRelative then .error .traverseFsMismatch
        else if rr ≠ saved.resumeRelative then .error .resumeFsMismatch
        else .ok (o, saved.active)

/-! ### Running -/

/-- What is navigated in a resume. Fastward (and Undefined): Snooze (strategy-fastward.go:136-138, mediator.go:142-154).
Spawn: Bridge, which sets the depth counter to the saved depth, then crown (strategy-spawn.go:31-44, mediator.go:104-108).
With the strategy's answer to IsComplete. -/
def resumeRun (S : Setup) (o : Options κ) (C : Client κ) (disk : Disk) (strategy : Strategy) (a : Active) (w : World κ) :
    Final × Bool × St (World κ) :=
  match strategy with
  | .spawn =>
    crown S.nav (S.env C a.tree a.currentPath) o.fault (statOf S.nav o disk) disk a.tree a.currentPath.reverse true
      ⟨a.depth, w, []⟩
  | _ =>
    let r := runTop S o C disk a.tree a.currentPath ⟨0, w, []⟩
    (r.1, true, r.2)

/-- Controller.Ignite, Navigate, Bye (controller.go:21-24, 40-42, 77-83) in driver.Navigate (driver.go:29-37). Ignite of
fastward mutes before Begin is dispatched. The metrics of spawn's Bridge are merged into the world from the start, which
no listener can tell. -/
def Built.resume (b : Built κ) (strategy : Strategy) (h : κ → Parcel → κ × Reply) (disk : Disk) (a : Active) (x : κ) :
    Report κ :=
  match b with
  | .crash => { verdict := .panic, client := x, tape := [] }
  | .hades e => { verdict := .unbuilt e, client := x, tape := [] }
  | .stillborn e o =>
    if strategy = .spawn then
      let C := o.client h
      { verdict := .unbuilt e, client := C.listen (C.listen x (.begin a.tree)) .ended,
        tape := [.note (.begin a.tree), .note .ended] }
    else { verdict := .unbuilt e, client := x, tape := [], complete := true }
  | .ready S o =>
    let C := o.client h
    let w := (S.world x (if strategy = .spawn then a.metrics else fun _ => none)).publish C (.begin a.tree)
    match resumeRun S o C disk strategy a w with
    | (.panic, _, s) => { verdict := .panic, client := s.ext.client, tape := s.ext.tape, hits := s.ext.hits }
    | (.done e, complete, s) =>
      let w' := s.ext.publish C .ended
      { verdict := .done e, client := w'.client, tape := w'.tape, hits := w'.hits, metrics := w'.metrics, complete := complete }

/-- age.Walk().Configure().Extent(age.Resume(facade, settings...)).Navigate(ctx); `files` is what ReadFile says. A nil
handler panics when it is called. (factories.go:20-71, scaffold.go:54-97.) -/
def walkResume (P : Platform κ) (facade : Facade κ) (settings : List (Option (Setting κ)))
    (files : String → Except Err Json) (disk : Disk) (x : κ) : Report κ :=
  match facade with
  | .using _ => { verdict := .unbuilt .wrongResumeFacade, client := x, tape := [] }   -- pacify, scaffold.go:60-63
  | .relic r =>
    match resumePlatform P r settings (files r.from) with
    | .error e => { verdict := .unbuilt e, client := x, tape := [] }
    | .ok (o, a) =>
      (buildRest P a.sub (some r.strategy) o.afterwards).resume r.strategy
        (r.handler.getD (fun k _ => (k, .panic))) disk a x

end Traverse
