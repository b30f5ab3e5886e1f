import Verif.Model.Chain
/-
The navigators again, for callbacks that may panic: besides the handler also the OnDescend and OnAscend
listeners, the hooks called for a node, the skip handler and the panic handler. `Verif.Model.Kernel` is the special case in
which those five never do (`Verif.Props.Mortal`, C67_conservative).
-/
namespace Traverse
variable {σ : Type}

/-- Everything the navigator calls out to, each with the possibility of a panic: `true` or `none`.
(mediator.go:75-79, 160-175; pref/defects.go:49-53; navigator-agent.go:118-124.) -/
structure Mortal (σ : Type) where
  /-- Controls.Descend.Dispatch (mediator.go:165): does a listener panic? -/
  descend : σ → Path → Bool → σ × Bool
  /-- Controls.Ascend.Dispatch (mediator.go:173): does a listener panic? -/
  ascend : σ → Path → Bool → σ × Bool
  /-- Does a hook panic while the node is inspected: reading and sorting a directory, making the sub path
  (navigator-universal.go:53-89, extend.go:41-67)? What hooks answer is in the tree, as in `Verif.Model.Kernel`. -/
  hooks : σ → Path → Bool → Bool
  /-- mediator.Invoke (mediator.go:75-79). -/
  invoke : σ → Node → σ × Reply
  /-- Defects.Skip.Ask (navigator-universal.go:42-44). -/
  ask : σ → Node → Option Err → σ × Option (Skip × Option Err)
  /-- Defects.Panic.Rescue (navigator-agent.go:118-124). -/
  rescue : σ → NodeInfo → Int → σ × Option Rescue

/-- The environment of `Verif.Model.Kernel`: only the handler panics. (mediator.go:75-79, 160-175.) -/
def Env.mortal (env : Env σ) : Mortal σ where
  descend x p d := (env.descend x p d, false)
  ascend x p d := (env.ascend x p d, false)
  hooks _ _ _ := false
  invoke := env.invoke
  ask x n re := let r := env.ask x n re; (r.1, some (r.2.1, r.2.2))
  rescue x n d := let r := env.rescue x n d; (r.1, some r.2)

/-- One call made by the navigator and how it ended; of the hooks only the one that panics. (navigator-universal.go:21-51.) -/
inductive Call where
  | descend (p : Path) (isDir : Bool) (dies : Bool)
  | ascend (p : Path) (isDir : Bool) (dies : Bool)
  | hook (p : Path) (isDir : Bool)
  | invoke (n : Node) (r : Reply)
  | ask (n : Node) (readErr : Option Err) (a : Option (Skip × Option Err))
  | rescue (cur : NodeInfo) (depth : Int) (a : Option Rescue)
  deriving DecidableEq, Repr

/-- Navigator state: the periscope's depth counter (periscope.go:15-17), the outside state, and the
history of calls made so far (ghost). -/
structure MSt (σ : Type) where
  depth : Int
  ext : σ
  log : List Call

namespace MSt
/-- mediator.descend: the counter is raised before the listeners are called (mediator.go:160-169). -/
def doDescend (M : Mortal σ) (p : Path) (isDir : Bool) (s : MSt σ) : Bool × MSt σ :=
  let r := M.descend s.ext p isDir
  (r.2, { depth := s.depth + 1, ext := r.1, log := s.log ++ [.descend p isDir r.2] })
/-- mediator.ascend: the counter is lowered before the listeners are called (mediator.go:171-176). -/
def doAscend (M : Mortal σ) (p : Path) (isDir : Bool) (s : MSt σ) : Bool × MSt σ :=
  let r := M.ascend s.ext p isDir
  (r.2, { depth := s.depth - 1, ext := r.1, log := s.log ++ [.ascend p isDir r.2] })
/-- mediator.Invoke, recorded (mediator.go:75-79). -/
def doInvoke (M : Mortal σ) (n : Node) (s : MSt σ) : Reply × MSt σ :=
  let r := M.invoke s.ext n
  (r.2, { s with ext := r.1, log := s.log ++ [.invoke n r.2] })
/-- Defects.Skip.Ask, recorded (navigator-universal.go:42-44). -/
def doAsk (M : Mortal σ) (n : Node) (re : Option Err) (s : MSt σ) : Option (Skip × Option Err) × MSt σ :=
  let r := M.ask s.ext n re
  (r.2, { s with ext := r.1, log := s.log ++ [.ask n re r.2] })
/-- Defects.Panic.Rescue, recorded (navigator-agent.go:118-124). -/
def doRescue (M : Mortal σ) (n : NodeInfo) (s : MSt σ) : Option Rescue × MSt σ :=
  let r := M.rescue s.ext n (periDepth s.depth)
  (r.2, { s with ext := r.1, log := s.log ++ [.rescue n (periDepth s.depth) r.2] })
end MSt

/-- The part of Traverse between inspect and travel, as `enter`, with a skip handler that may panic.
(navigator-universal.go:36-48, navigator-directories.go:36-46, navigator-files.go:42-56.) -/
def proceedM (c : Nav) (M : Mortal σ) (n : Node) (re : Option Err) (s : MSt σ) : Act × MSt σ :=
  match c.sub with
  | .files =>
    if !n.isDir then
      match s.doInvoke M n with
      | (.panic, s) => (.done .panic, s)
      | (.ok e, s) => (.done (.ret false e), s)
    else
      match s.doAsk M n re with
      | (none, s) => (.done .panic, s)
      | (some (sk, e), s) =>
        if sk == .all || re.isSome then (.done (.ret true e), s)
        else if sk == .dir then (.done (.ret true e), s)
        else (.travel, s)
  | .directories | .directoriesWithFiles =>
    match s.doInvoke M n with
    | (.panic, s) => (.done .panic, s)
    | (.ok (some e), s) => (.done (.ret true (some e)), s)
    | (.ok none, s) =>
      match s.doAsk M n re with
      | (none, s) => (.done .panic, s)
      | (some (sk, e), s) =>
        if sk == .all then (.done (.ret true e), s)
        else (.travel, s)
  | _ =>
    match s.doInvoke M n with
    | (.panic, s) => (.done .panic, s)
    | (.ok (some e), s) => (.done (.ret true (some e)), s)
    | (.ok none, s) =>
      match s.doAsk M n re with
      | (none, s) => (.done .panic, s)
      | (some (sk, e), s) =>
        if sk == .all then (.done (.ret true e), s)
        else if sk == .dir then (.done (.ret false e), s)
        else (.travel, s)

/-- The part of Traverse between descend and travel: inspect comes first and may not return.
(navigator-universal.go:34-48, navigator-directories.go:34-46, navigator-files.go:34-56.) -/
def enterM (c : Nav) (M : Mortal σ) (n : Node) (re : Option Err) (s : MSt σ) : Act × MSt σ :=
  if M.hooks s.ext n.path n.isDir then (.done .panic, { s with log := s.log ++ [.hook n.path n.isDir] })
  else proceedM c M n re s

/-- The deferred recovery of travel (navigator-agent.go:109-146). A panic handler that panics lets its own panic
out of travel in place of the first. -/
def recoverInM (M : Mortal σ) (cur : NodeInfo) : Out × MSt σ → Out × MSt σ
  | (.panic, s) =>
    match s.doRescue M cur with
    | (some r, s) => (.ret false (some r.err), s)
    | (none, s) => (.panic, s)
  | (o, s) => (o, s)

/-- The deferred call of mediator.ascend: it also runs while a panic passes through, and a listener that panics in it
replaces whatever Traverse was about to return. (navigator-universal.go:28-30, mediator.go:171-176.) -/
def ascendM (M : Mortal σ) (p : Path) (isDir : Bool) (r : Out × MSt σ) : Out × MSt σ :=
  match r.2.doAscend M p isDir with
  | (true, s) => (.panic, s)
  | (false, s) => (r.1, s)

mutual
/-- Traverse: navigator-universal.go:21-51, navigator-directories.go:21-49, navigator-files.go:21-59. A listener that
panics in descend does so before the deferred ascend is set up (lines 26-30), so that ascend never comes. -/
def traverseM (c : Nav) (M : Mortal σ) (parents : List NodeInfo) (pp : Path) : Tree → MSt σ → Out × MSt σ
  | .node e re fs ds kids, s =>
    let t := Tree.node e re fs ds kids
    let path := pp ++ [e.name]
    if tooDeep c s.depth then (.ret true none, s)
    else
      match s.doDescend M path e.isDir with
      | (true, s) => (.panic, s)
      | (false, s) =>
        let n := mkNode c parents path t s.depth
        ascendM M path e.isDir
          (match enterM c M n (readErrOf c t) s with
            | (.done o, s) => (o, s)
            | (.travel, s) =>
              recoverInM M n.toNodeInfo (travelLoopM c M (n.toNodeInfo :: parents) path kids s))
/-- The loop of travel (navigator-agent.go:152-201). -/
def travelLoopM (c : Nav) (M : Mortal σ) (parents : List NodeInfo) (pp : Path) :
    List Tree → MSt σ → Out × MSt σ
  | [], s => (.ret true none, s)
  | t :: ts, s =>
    match traverseM c M parents pp t s with
    | (.panic, s) => (.panic, s)
    | (.ret false none, s) => travelLoopM c M parents pp ts s
    | (.ret false (some e), s) =>
      if e.isSkipDir then (.ret false (some e), s) else (.ret true (some e), s)
    | (.ret true none, s) => travelLoopM c M parents pp ts s
    | (.ret true (some e), s) =>
      if e.isSkipDir then travelLoopM c M parents pp ts s
      else if e.isSkipAll then travelLoopM c M parents pp ts s
      else (.ret true (some e), s)
end

/-- A session whose root can be stat'ed (mediator.go:114-128, navigator-agent.go:47-74). -/
def walkM (c : Nav) (M : Mortal σ) (x : σ) (pre : Path) (fs : FS) : Final × MSt σ :=
  let r := traverseM c M [] pre (prep c fs) { depth := 0, ext := x, log := [] }
  (r.1.final, r.2)

end Traverse
