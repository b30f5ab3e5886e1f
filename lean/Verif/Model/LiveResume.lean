import Verif.Model.Live
import Verif.Model.Resume
/-
Resumed sessions on a file system that changes while it is walked: as Model/Live, with the questions the spawn strategy asks besides
(internal/feat/resume/strategy-spawn.go).
-/
namespace Traverse
variable {σ κ : Type}

/-- spawnStrategy.following with the two calls of Sort and All (strategy-spawn.go:83-86, 116-140), as `following`, the directory being
listed at this moment. -/
def followingLive (c : Nav) (L : Look σ) (parent : Path) (anchor : String) (inclusive : Bool) (x : σ) : Except Err (List String) :=
  match c.read ((L.list x parent).1.map Tree.stub) (L.list x parent).2 with
  | (_, some e) => .error e
  | (ents, none) =>
    let l := fromAnchor anchor inclusive ents
    let fs := c.sort (l.filter (fun t => !t.isDir))
    let ds := c.sort (l.filter (fun t => t.isDir))
    .ok ((if c.filesFirst then fs ++ ds else ds ++ fs).map Tree.name)

/-- spawnStrategy.seed (strategy-spawn.go:98-114), as `seed`. -/
def seedLive (c : Nav) (env : Env σ) (L : Look σ) (query : Stat → Stat) (fault : σ → Path → Err → σ × Option Err) (n : Nat) (parent : Path) :
    List String → St σ → Option (Final × St σ)
  | [], s => some (.done none, s)
  | a :: as, s =>
    match topLive c env L query fault n parent (parent ++ [a]) s with
    | none => none
    | some (.done none, s, _) => seedLive c env L query fault n parent as s
    | some (f, s, _) => some (f, s)

/-- spawnStrategy.crown (strategy-spawn.go:59-95), as `crown`. -/
def crownLive (c : Nav) (env : Env σ) (L : Look σ) (query : Stat → Stat) (fault : σ → Path → Err → σ × Option Err) (n : Nat) (tree : Path) :
    List String → Bool → St σ → Option (Final × Bool × St σ)
  | [], _, s => if tree = [] then some (.done none, true, s) else some (.panic, false, s)
  | child :: rparent, inclusive, s =>
    if (child :: rparent).reverse = tree then some (.done none, true, s)
    else
      match followingLive c L rparent.reverse child inclusive s.ext with
      | .error e => some (.done (some e), false, s)
      | .ok names =>
        match seedLive c env L query fault n rparent.reverse names s with
        | none => none
        | some (.done none, s) => crownLive c env L query fault n tree rparent false s
        | some (f, s) => some (f, false, s)

/-- As `resumeRun` (strategy-fastward.go:136-138, strategy-spawn.go:31-44, mediator.go:90-108, 142-154). -/
def resumeRunLive (S : Setup) (o : Options κ) (C : Client κ) (L : Look κ) (n : Nat) (strategy : Strategy) (a : Active) (w : World κ) :
    Option (Final × Bool × St (World κ)) :=
  match strategy with
  | .spawn =>
    crownLive S.nav (S.env C a.tree a.currentPath) L.world o.hooks.queryStatus.invoke o.fault n a.tree a.currentPath.reverse true
      ⟨a.depth, w, []⟩
  | _ =>
    (topLive S.nav (S.env C a.tree a.currentPath) L.world o.hooks.queryStatus.invoke o.fault n a.tree.dropLast a.tree ⟨0, w, []⟩).map
      fun r => (r.1, true, r.2.1)

/-- As `Built.resume` (controller.go:21-24, 40-42, 77-83, driver.go:29-37), on a file system that may change. -/
def Built.resumeLive (b : Built κ) (strategy : Strategy) (h : κ → Parcel → κ × Reply) (L : Look κ) (n : Nat) (a : Active) (x : κ) :
    Option (Report κ) :=
  match b with
  | .crash => some { verdict := .panic, client := x, tape := [] }
  | .hades e => some { verdict := .unbuilt e, client := x, tape := [] }
  | .stillborn e o =>
    if strategy = .spawn then
      let C := o.client h
      some { verdict := .unbuilt e, client := C.listen (C.listen x (.begin a.tree)) .ended,
             tape := [.note (.begin a.tree), .note .ended] }
    else some { verdict := .unbuilt e, client := x, tape := [], complete := true }
  | .ready S o =>
    let C := o.client h
    let w := (S.world x (if strategy = .spawn then a.metrics else fun _ => none)).publish C (.begin a.tree)
    (resumeRunLive S o C L n strategy a w).map fun r =>
      match r with
      | (.panic, _, s) => { verdict := .panic, client := s.ext.client, tape := s.ext.tape, hits := s.ext.hits }
      | (.done e, complete, s) =>
        let w' := s.ext.publish C .ended
        { verdict := .done e, client := w'.client, tape := w'.tape, hits := w'.hits, metrics := w'.metrics, complete := complete }

/-- age.Walk().Configure().Extent(age.Resume(facade, settings...)).Navigate(ctx) (factories.go:20-71, scaffold.go:54-97), as
`walkResume`, on a file system that may change. -/
def walkResumeLive (P : Platform κ) (facade : Facade κ) (settings : List (Option (Setting κ)))
    (files : String → Except Err Json) (L : Look κ) (n : Nat) (x : κ) : Option (Report κ) :=
  match facade with
  | .using _ => some { verdict := .unbuilt .wrongResumeFacade, client := x, tape := [] }
  | .relic r =>
    match resumePlatform P r settings (files r.from) with
    | .error e => some { verdict := .unbuilt e, client := x, tape := [] }
    | .ok (o, a) =>
      (buildRest P a.sub (some r.strategy) o.afterwards).resumeLive r.strategy
        (r.handler.getD (fun k _ => (k, .panic))) L n a x

end Traverse
