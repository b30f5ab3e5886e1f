import Verif.Model.Chain
import Verif.Spec.Observe
/-
Vocabulary for the properties of the invocation chain.
-/
namespace Traverse
variable {κ : Type}

/-- The documented order of the decorators (manifest.go:16-23, README), the handler last. -/
def documentedOrder : List Role := [.fastward, .hibernate, .nanny, .clientFilter, .sampler, .anchor]

/-- Which decorators a session should have. -/
def Setup.wants (S : Setup) : Role → Bool
  | .fastward => S.resume = some .fastward
  | .hibernate => S.hiber.wakeAt.isSome || S.hiber.sleepAt.isSome
  | .nanny => S.nav.sub = .directoriesWithFiles && S.filter.primary.isNone && S.filter.child.isNone
  | .clientFilter => S.filter.primary.isSome || S.filter.child.isSome
  | .sampler => S.sampling
  | .anchor => true
  | .undefined => false

/-- A whole session on `fs`: the navigator started on a fresh state with the world made by `S.world`. -/
def Setup.session (S : Setup) (C : Client κ) (x : κ) (carried : Metrics) (target : Path) (pre : Path) (fs : FS) :
    Final × St (World κ) :=
  walk S.nav (S.env C (pre ++ [fs.name]) target) (S.world x carried) pre fs

/-- The nodes the handler was called for. -/
def World.called (w : World κ) : List Node := w.hits.map (fun h => h.parcel.node)

/-- The nodes from the first one matching `wake` (included or not) up to the first later one matching `sleep` (excluded
or not); without a wake condition from the start, without a sleep condition to the end. -/
def upTo (sleep : Option (Node → Bool)) (incl : Bool) (l : List Node) : List Node :=
  match sleep with
  | none => l
  | some s => l.takeWhile (fun n => !s n) ++ (if incl then (l.dropWhile (fun n => !s n)).take 1 else [])

def window (h : HiberOpts) (l : List Node) : List Node :=
  match h.wakeAt with
  | none => upTo h.sleepAt h.inclusiveSleep l
  | some w =>
    match l.dropWhile (fun n => !w n) with
    | [] => []
    | n :: rest => (if h.inclusiveWake then [n] else []) ++ upTo h.sleepAt h.inclusiveSleep rest

/-- The filter's verdict on a node: the node filter's, or, for a sample filter, which judges the root of the tree only,
whether the root's entry is among the matching ones. -/
def Setup.accepts (S : Setup) (n : Node) : Bool :=
  match S.filter.primary with
  | none => true
  | some (.node f) => f n
  | some (.sample matching) => n.scope &&& Scope.tree = 0#32 || !(matching [⟨n.name, n.isDir, none⟩]).isEmpty

/-- A node as the navigator may present it when it walks `fs`: one without a parent is the root. -/
def Node.Of (n : Node) (fs : FS) : Prop := n.parents = [] → n.isDir = fs.isDir

/-- Neither the node filter nor the wake and sleep conditions, if there are any, panic. -/
structure Setup.Calm (S : Setup) : Prop where
  filter : ∀ n, S.filter.dies n = false
  trigger : S.hiber.active = true → ∀ n, S.hiber.wakeDies n = false ∧ S.hiber.sleepDies n = false

/-- A child filter looks at the files of a directory, so it goes with the subscriptions that deliver directories only; and
filters do not panic. -/
structure Setup.Sane (S : Setup) : Prop extends Setup.Calm S where
  child : S.filter.child.isSome = true → S.nav.sub = .directories ∨ S.nav.sub = .directoriesWithFiles

/-- What the client side should see of hibernation among the nodes `l`: nothing up to the wake node, the Wake event, the
calls of the window, the Sleep event at the sleep node, and nothing afterwards. -/
def tillSleep (h : HiberOpts) (acc : Node → Bool) (l : List Node) : List Obs :=
  match h.sleepAt with
  | none => (l.filter acc).map .call
  | some s =>
    ((l.takeWhile (fun n => !s n)).filter acc).map .call ++
      match l.dropWhile (fun n => !s n) with
      | [] => []
      | m :: _ => .note .sleep :: if h.inclusiveSleep && acc m then [.call m] else []

def windowTape (h : HiberOpts) (acc : Node → Bool) (l : List Node) : List Obs :=
  match h.wakeAt with
  | none => tillSleep h acc l
  | some w =>
    match l.dropWhile (fun n => !w n) with
    | [] => []
    | n :: rest => .note .wake :: (if h.inclusiveWake && acc n then [.call n] else []) ++ tillSleep h acc rest

/-- Handler calls, Wake and Sleep events only. -/
def Obs.isHib : Obs → Bool
  | .note .wake | .note .sleep | .call _ => true
  | _ => false

/-- How many of the nodes are directories (`true`) / files (`false`). -/
def ofKind (d : Bool) (l : List Node) : Nat := (l.filter (fun n => n.isDir == d)).length

/-- The metric counting handler calls for directories / files. -/
def invokedMetric (d : Bool) : Metric := if d then .dirsInvoked else .filesInvoked
/-- The metric counting filtered out directories / files. -/
def filteredMetric (d : Bool) : Metric := if d then .dirsFilteredOut else .filesFilteredOut

/-- A first session, or one resumed by spawning: nothing is muted, there is no fastward link. -/
def Setup.Ordinary (S : Setup) : Prop := S.resume = none ∨ S.resume = some .spawn

/-- The files a directory shows with the default read hook. -/
def FS.fileEntries : FS → List Entry
  | .file .. => []
  | .dir _ _ re kids =>
    if re.isSome then []
    else (kids.filter (fun k => k.name != ".DS_Store" && !k.isDir)).map
      (fun k => match k with | .file n ie _ => ⟨n, false, ie⟩ | .dir n ie _ _ => ⟨n, true, ie⟩)

/-- The nodes that reached a link. -/
def World.reached (w : World κ) (r : Role) : List Node :=
  (w.steps.filter (fun s => s.1 == r)).map Prod.snd

end Traverse

namespace Traverse
/-- Among these nodes, in this order, the sleep condition has been met: some node after the wake node (after the start,
without a wake condition) matches it. -/
def hasSlept (h : HiberOpts) (l : List Node) : Bool :=
  match h.sleepAt with
  | none => false
  | some s =>
    match h.wakeAt with
    | none => l.any s
    | some w => ((l.dropWhile (fun n => !w n)).drop 1).any s
end Traverse
