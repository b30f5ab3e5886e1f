import Verif.Model.Basic
/-
The recursive navigators: internal/kernel/navigator-{agent,universal,directories,files}.go,
internal/level/periscope.go, internal/kernel/extend.go, internal/kernel/mediator.go.
-/
namespace Traverse

/-- What the invocation chain (guardian.Invoke, guardian.go:148-150) answers for a node:
an error (nil = `none`) or a panic of the client. -/
inductive Reply where
  | ok (e : Option Err)
  | panic
  deriving DecidableEq, Repr, Inhabited

/-- What Defects.Panic.Rescue returns (navigator-agent.go:118): the destination, or the reason
the state could not be saved. -/
inductive Rescue where
  | saved (dest : String)
  | failed (reason : Err)
  deriving DecidableEq, Repr, Inhabited

/-- The error travel reports after a panic (navigator-agent.go:131-142). -/
def Rescue.err : Rescue → Err
  | .saved d => .saved d
  | .failed r => .notSaved r

/-- Everything the navigator calls out to; `σ` is the state of all of that (client, plugins,
listeners, panic handler). The life-cycle listeners, the skip handler and the panic handler are
taken not to panic themselves; for the case that they do see `Verif.Model.Mortal` (C67). (mediator.go:75-79, 160-175; pref/defects.go:49-53.) -/
structure Env (σ : Type) where
  /-- Controls.Descend.Dispatch (mediator.go:165); the node's Extension is not yet filled. -/
  descend : σ → Path → Bool → σ
  /-- Controls.Ascend.Dispatch (mediator.go:173). -/
  ascend : σ → Path → Bool → σ
  /-- mediator.Invoke (mediator.go:75-79). -/
  invoke : σ → Node → σ × Reply
  /-- Defects.Skip.Ask (navigator-universal.go:42-44). -/
  ask : σ → Node → Option Err → σ × Skip × Option Err
  /-- Defects.Panic.Rescue, given the node whose children were being travelled and the periscope
  depth at that moment (navigator-agent.go:118-124, author.go:31-34). -/
  rescue : σ → NodeInfo → Int → σ × Rescue

/-- One observable call made by the navigator. (navigator-universal.go:21-51.) -/
inductive Ev where
  | descend (p : Path) (isDir : Bool)
  | ascend (p : Path) (isDir : Bool)
  | invoke (n : Node) (r : Reply)
  | ask (n : Node) (readErr : Option Err) (s : Skip) (e : Option Err)
  | rescue (cur : NodeInfo) (depth : Int) (r : Rescue)
  deriving DecidableEq, Repr

/-- Navigator state: the periscope's depth counter (periscope.go:15-17), the outside state, and the
history of calls made so far (ghost). -/
structure St (σ : Type) where
  depth : Int
  ext : σ
  log : List Ev

/-- How a call of Traverse ends: `(progress, err)`, or a panic on its way up. (navigator-agent.go:22-45.) -/
inductive Out where
  | ret (progress : Bool) (e : Option Err)
  | panic
  deriving DecidableEq, Repr, Inhabited

variable {σ : Type}

/-- periscope.Depth (periscope.go:55-57). -/
def periDepth (d : Int) : Int := d - 1

/-- periscope.Scope (periscope.go:31-53). -/
def periScope (d : Int) (isLeaf : Bool) : Scope :=
  let depth := periDepth d
  if isLeaf && depth == 0 then Scope.tree ||| Scope.leaf
  else if depth == 0 then Scope.tree
  else if isLeaf && depth == 1 then Scope.top ||| Scope.leaf
  else if depth == 1 then Scope.top
  else if isLeaf then Scope.leaf
  else Scope.intermediate

/-- The condition under which periscope.Descend refuses (periscope.go:70-73). -/
def tooDeep (c : Nav) (d : Int) : Bool := decide (0 < c.maxDepth) && decide ((c.maxDepth : Int) < d)

/-- Whether the navigator reads this node: only directories, except that the Directories
navigator reads whatever it is given (navigator-directories.go:68-71). -/
def hasCargo (sub : Subscription) (isDir : Bool) : Bool :=
  match sub with
  | .directories | .directoriesWithFiles => true
  | _ => isDir

/-- core.New / core.Top (core/node.go:39-66) followed by inspect's extend (extend.go:12-66):
`d` is the depth counter after Descend. SubPath is treated in `Verif.Model.Paths`. -/
def mkNode (c : Nav) (parents : List NodeInfo) (path : Path) (t : Tree) (d : Int) : Node :=
  let isLeaf := t.isDir && t.dirs.isEmpty
  { path := path
    isDir := t.isDir
    infoErr := if parents.isEmpty then none else t.entry.infoErr
    depth := periDepth d
    isLeaf := isLeaf
    scope := if t.isDir then periScope d isLeaf ||| Scope.directory else Scope.leaf ||| Scope.file
    parents := parents
    cargo := if hasCargo c.sub t.isDir then some (t.files, t.dirs) else none }

/-- The read error seen by the navigator for this node (`err` of inspect). (navigator-universal.go:62-79.) -/
def readErrOf (c : Nav) (t : Tree) : Option Err :=
  if hasCargo c.sub t.isDir then t.readErr else none

/-- Calls that record themselves in the history. (mediator.go:160-169, periscope.go:70-78.) -/
def St.doDescend (env : Env σ) (p : Path) (isDir : Bool) (s : St σ) : St σ :=
  { depth := s.depth + 1, ext := env.descend s.ext p isDir, log := s.log ++ [.descend p isDir] }
/-- mediator.ascend, recorded (mediator.go:171-175, periscope.go:80-82). -/
def St.doAscend (env : Env σ) (p : Path) (isDir : Bool) (s : St σ) : St σ :=
  { depth := s.depth - 1, ext := env.ascend s.ext p isDir, log := s.log ++ [.ascend p isDir] }
/-- mediator.Invoke, recorded (mediator.go:75-79). -/
def St.doInvoke (env : Env σ) (n : Node) (s : St σ) : Reply × St σ :=
  let r := env.invoke s.ext n
  (r.2, { s with ext := r.1, log := s.log ++ [.invoke n r.2] })
/-- Defects.Skip.Ask, recorded (navigator-universal.go:42-44). -/
def St.doAsk (env : Env σ) (n : Node) (re : Option Err) (s : St σ) : Skip × Option Err × St σ :=
  let r := env.ask s.ext n re
  (r.2.1, r.2.2, { s with ext := r.1, log := s.log ++ [.ask n re r.2.1 r.2.2] })
/-- Defects.Panic.Rescue, recorded (navigator-agent.go:118-124). -/
def St.doRescue (env : Env σ) (n : NodeInfo) (s : St σ) : Rescue × St σ :=
  let r := env.rescue s.ext n (periDepth s.depth)
  (r.2, { s with ext := r.1, log := s.log ++ [.rescue n (periDepth s.depth) r.2] })

/-- Either the node's Traverse returns now, or it goes on to travel its entries. (navigator-universal.go:36-51.) -/
inductive Act where
  | done (o : Out)
  | travel
  deriving DecidableEq, Repr, Inhabited

/-- The part of Traverse between descend and travel.
Universal: navigator-universal.go:36-48. Directories: navigator-directories.go:36-46 (a SkipDir
verdict is not looked at). Files: navigator-files.go:42-56 (directories never reach the chain, files
never reach the skip handler, any read error ends the directory with the skip handler's error). -/
def enter (c : Nav) (env : Env σ) (n : Node) (re : Option Err) (s : St σ) : Act × St σ :=
  match c.sub with
  | .files =>
    if !n.isDir then
      match s.doInvoke env n with
      | (.panic, s) => (.done .panic, s)
      | (.ok e, s) => (.done (.ret false e), s)
    else
      match s.doAsk env n re with
      | (sk, e, s) =>
        if sk == .all || re.isSome then (.done (.ret true e), s)
        else if sk == .dir then (.done (.ret true e), s)
        else (.travel, s)
  | .directories | .directoriesWithFiles =>
    match s.doInvoke env n with
    | (.panic, s) => (.done .panic, s)
    | (.ok (some e), s) => (.done (.ret true (some e)), s)
    | (.ok none, s) =>
      match s.doAsk env n re with
      | (sk, e, s) =>
        if sk == .all then (.done (.ret true e), s)
        else (.travel, s)
  | _ =>
    match s.doInvoke env n with
    | (.panic, s) => (.done .panic, s)
    | (.ok (some e), s) => (.done (.ret true (some e)), s)
    | (.ok none, s) =>
      match s.doAsk env n re with
      | (sk, e, s) =>
        if sk == .all then (.done (.ret true e), s)
        else if sk == .dir then (.done (.ret false e), s)
        else (.travel, s)

/-- The deferred recovery of travel (navigator-agent.go:109-146): a panic that reaches the travel of
`cur`'s entries is handed to the panic handler and becomes the error of that travel. -/
def recoverIn (env : Env σ) (cur : NodeInfo) : Out × St σ → Out × St σ
  | (.panic, s) =>
    match s.doRescue env cur with
    | (r, s) => (.ret false (some r.err), s)
  | (o, s) => (o, s)

mutual
/-- Traverse: navigator-universal.go:21-51, navigator-directories.go:21-49,
navigator-files.go:21-59, with mediator.descend/ascend (mediator.go:160-175). The deferred ascend
also runs while a panic passes through. -/
def traverse (c : Nav) (env : Env σ) (parents : List NodeInfo) (pp : Path) : Tree → St σ → Out × St σ
  | .node e re fs ds kids, s =>
    let t := Tree.node e re fs ds kids
    let path := pp ++ [e.name]
    if tooDeep c s.depth then (.ret true none, s)
    else
      let s := s.doDescend env path e.isDir
      let n := mkNode c parents path t s.depth
      let r : Out × St σ :=
        match enter c env n (readErrOf c t) s with
        | (.done o, s) => (o, s)
        | (.travel, s) =>
          recoverIn env n.toNodeInfo (travelLoop c env (n.toNodeInfo :: parents) path kids s)
      (r.1, r.2.doAscend env path e.isDir)
/-- The loop of travel (navigator-agent.go:152-201). `case errors.Is(err, fs.SkipAll): break`
(lines 193-194) leaves the switch statement only, so the loop goes on. -/
def travelLoop (c : Nav) (env : Env σ) (parents : List NodeInfo) (pp : Path) :
    List Tree → St σ → Out × St σ
  | [], s => (.ret true none, s)
  | t :: ts, s =>
    match traverse c env parents pp t s with
    | (.panic, s) => (.panic, s)
    | (.ret false none, s) => travelLoop c env parents pp ts s
    | (.ret false (some e), s) =>
      if e.isSkipDir then (.ret false (some e), s) else (.ret true (some e), s)
    | (.ret true none, s) => travelLoop c env parents pp ts s
    | (.ret true (some e), s) =>
      if e.isSkipDir then travelLoop c env parents pp ts s
      else if e.isSkipAll then travelLoop c env parents pp ts s
      else (.ret true (some e), s)
end

/-- What the caller of Navigate sees: an error value (nil = `none`) or the client's panic. (navigator-agent.go:62-74.) -/
inductive Final where
  | done (e : Option Err)
  | panic
  deriving DecidableEq, Repr, Inhabited

/-- top drops the progress flag (navigator-agent.go:62-70). -/
def Out.final : Out → Final
  | .ret _ e => .done e
  | .panic => .panic

/-- Result of Options.Hooks.QueryStatus on the tree path: an error, or the tree found there. (navigator-agent.go:50-58.) -/
inductive RootStat where
  | error (e : Err)
  | found (t : Tree)

/-- navigatorAgent.top (navigator-agent.go:47-74). `fault` is Defects.Fault.Accept, given the path
and the error. The root's Parent is nil and its Path is the tree path (`pre ++ [name]`). -/
def top (c : Nav) (env : Env σ) (fault : σ → Path → Err → σ × Option Err) (pre : Path)
    (treePath : Path) (r : RootStat) (s : St σ) : Final × St σ :=
  match r with
  | .error e => let f := fault s.ext treePath e; (.done f.2, { s with ext := f.1 })
  | .found t => let o := traverse c env [] pre t s; (o.1.final, o.2)

end Traverse
