import Verif.Model.Session
/-
The navigators on a file system that changes while it is walked: the program asks the file system at two places only, entry.Info()
(navigator-agent.go:154) and the ReadDirectory hook (navigation-fs.go:7-14), besides the QueryStatus hook on the root
(navigator-agent.go:50-52). `Verif.Model.Kernel` navigates a tree that is given once and for all; here every answer is that of the
moment. Who changes the file system, the client's callbacks or somebody else, does not matter: every call out of the navigator may leave it
different, and between any two questions to the file system whose answers can be seen there is such a call.
-/
namespace Traverse
variable {σ κ : Type}

/-- The file system as seen from a state of everything outside the navigator: Stat of a path, what ReadDir of a path returns, and the error
of Info() of the entry at a path. (nef.TraverseFS, third party; navigator-agent.go:50-52, 154, navigation-fs.go:7-14.) -/
structure Look (σ : Type) where
  stat : σ → Path → Stat
  list : σ → Path → List Entry × Option Err
  info : σ → Path → Option Err

/-- An entry of which nothing else is known. (fs.DirEntry, contents.go:14-26.) -/
def Tree.stub (e : Entry) : Tree := .node e none [] [] []

/-- read, Sort and Pick of one node, at this moment (navigation-fs.go:7-14, the inspect methods navigator-universal.go:53-80,
navigator-directories.go:51-79, navigator-files.go:61-88): its contents, and the picked entries with nothing known about what is inside them. A
file has no contents, but may be read, see `prep`. -/
def lay (c : Nav) (L : Look σ) (e : Entry) (path : Path) (x : σ) : Tree :=
  if e.isDir then arrange c e (L.list x path).2 ((L.list x path).1.map Tree.stub)
  else .node e (L.list x path).2 [] [] []

/-- What a navigator saw of the file system when it entered a node (ghost): its Parent pointers, the entry, with the error of its Info() in the state `before`, and
its contents as laid out in the state `after` the Descend event. (navigator-agent.go:152-160, navigator-universal.go:27-35.) -/
structure Sight (σ : Type) where
  parents : List NodeInfo
  path : Path
  entry : Entry
  before : St σ
  after : St σ
  laid : Tree

/-- How a live traversal ends: how Traverse ended, the state, and what was seen; `none` if the fuel ran out. (navigator-agent.go:22-45.) -/
abbrev Journey (σ : Type) := Option (Out × St σ × List (Sight σ))

/-- The loop of travel (navigator-agent.go:152-201) with Info() asked for every entry just before it is traversed; `f` is Traverse. -/
def travelLive (L : Look σ) (pp : Path) (f : Entry → St σ → Journey σ) : List Entry → St σ → Journey σ
  | [], s => some (.ret true none, s, [])
  | e :: es, s =>
    match f { e with infoErr := L.info s.ext (pp ++ [e.name]) } s with
    | none => none
    | some (.panic, s, g) => some (.panic, s, g)
    | some (.ret p x, s, g) =>
      let go : Journey σ := (travelLive L pp f es s).map fun r => (r.1, r.2.1, g ++ r.2.2)
      match p, x with
      | false, none => go
      | false, some e => if e.isSkipDir then some (.ret false (some e), s, g) else some (.ret true (some e), s, g)
      | true, none => go
      | true, some e => if e.isSkipDir then go else if e.isSkipAll then go else some (.ret true (some e), s, g)

/-- Traverse (navigator-universal.go:21-51, navigator-directories.go:21-49, navigator-files.go:21-59), every directory read when it is
entered. A file system that grows while it is walked may keep the navigator busy for ever: the first argument is fuel, the number of levels it
is followed down. -/
def traverseLive (c : Nav) (env : Env σ) (L : Look σ) : Nat → List NodeInfo → Path → Entry → St σ → Journey σ
  | 0, _, _, _, _ => none
  | n + 1, parents, pp, e, s =>
    let path := pp ++ [e.name]
    if tooDeep c s.depth then some (.ret true none, s, [])
    else
      let s1 := s.doDescend env path e.isDir
      let t := lay c L e path s1.ext
      let nd := mkNode c parents path t s1.depth
      match enter c env nd (readErrOf c t) s1 with
      | (.done o, s2) => some (o, s2.doAscend env path e.isDir, [⟨parents, path, e, s, s1, t⟩])
      | (.travel, s2) =>
        match travelLive L path (traverseLive c env L n (nd.toNodeInfo :: parents) path) (t.kids.map Tree.entry) s2 with
        | none => none
        | some (o, s3, g) =>
          let r := recoverIn env nd.toNodeInfo (o, s3)
          some (r.1, r.2.doAscend env path e.isDir, ⟨parents, path, e, s, s1, t⟩ :: g)

/-- navigatorAgent.top (navigator-agent.go:47-74), the root being looked at now; `query` is the QueryStatus hook. -/
def topLive (c : Nav) (env : Env σ) (L : Look σ) (query : Stat → Stat) (fault : σ → Path → Err → σ × Option Err) (n : Nat)
    (pre treePath : Path) (s : St σ) : Option (Final × St σ × List (Sight σ)) :=
  match query (L.stat s.ext treePath) with
  | .error e => let f := fault s.ext treePath e; some (.done f.2, { s with ext := f.1 }, [])
  | .ok fs => (traverseLive c env L n [] pre ⟨fs.name, fs.isDir, none⟩ s).map fun o => (o.1.final, o.2)

/-- The file system is part of, or known to, the client's state. (pref/facade.go:12-33.) -/
def Look.world (L : Look κ) : Look (World κ) where
  stat w := L.stat w.client
  list w := L.list w.client
  info w := L.info w.client

/-- driver.Navigate of a sequential session (driver.go:29-37, session.go:17-43), as `Built.navigate`, on a file system that may change. -/
def Built.navigateLive (b : Built κ) (h : κ → Parcel → κ × Reply) (L : Look κ) (n : Nat) (tree : Path) (x : κ) : Option (Report κ) :=
  match b with
  | .crash => some { verdict := .panic, client := x, tape := [] }
  | .hades e => some { verdict := .unbuilt e, client := x, tape := [] }
  | .stillborn e o =>
    let C := o.client h
    some { verdict := .unbuilt e, client := C.listen (C.listen x (.begin tree)) .ended, tape := [.note (.begin tree), .note .ended], complete := true }
  | .ready S o =>
    let C := o.client h
    let w := (S.world x (fun _ => none)).publish C (.begin tree)
    (topLive S.nav (S.env C tree []) L.world o.hooks.queryStatus.invoke o.fault n tree.dropLast tree ⟨0, w, []⟩).map fun r =>
      match r.1 with
      | .panic => { verdict := .panic, client := r.2.1.ext.client, tape := r.2.1.ext.tape, hits := r.2.1.ext.hits }
      | .done e =>
        let w' := r.2.1.ext.publish C .ended
        { verdict := .done e, client := w'.client, tape := w'.tape, hits := w'.hits, metrics := w'.metrics, complete := true }

/-- age.Walk().Configure().Extent(age.Prime(facade, settings...)).Navigate(ctx) (factories.go:20-71) on a file system that may change. -/
def walkLive (P : Platform κ) (facade : Facade κ) (settings : List (Option (Setting κ))) (L : Look κ) (n : Nat) (x : κ) : Option (Report κ) :=
  match facade with
  | .relic r => (buildPrimary P facade settings).navigateLive (r.handler.getD (fun k _ => (k, .ok none))) L n [] x
  | .using u => (buildPrimary P facade settings).navigateLive (u.handler.getD (fun k _ => (k, .ok none))) L n u.tree x

end Traverse
