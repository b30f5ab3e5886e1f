import Verif.Spec.Chain
import Verif.Demo.Demo
/-
Concrete sessions with plugins, used by the `example`s beside the properties.
-/
namespace Traverse.Demo

/-- A client that records nothing and answers by the node's path. -/
def client (answer : Path → Reply) : Client Unit where
  handler x p := (x, answer p.node.path)
  listen x _ := x
  skip x _ _ := (x, .none, none)
  panics x _ := (x, .saved "dest")

/-- A session of the setup on the demo file system: the answer, and the handler calls with the two invocation metrics
seen by each. -/
def chainRun (S : Setup) (answer : Path → Reply) : Final × List (Path × Nat × Nat) :=
  let r := S.session (client answer) () (fun _ => none) [] [] fs
  (r.1, r.2.ext.hits.map fun h => (h.parcel.node.path, h.seen.count .filesInvoked, h.seen.count .dirsInvoked))

/-- A node filter that rejects names "f" and "b". -/
def noFB (n : Node) : Bool := n.name != "f" && n.name != "b"

def filtered (sub : Subscription) : Setup := { nav := nav sub, filter := { primary := some (.node noFB) } }

/-- Wakes at "c", sleeps at "x". -/
def sleepy (sub : Subscription) : Setup :=
  { nav := nav sub, hiber := { wakeAt := some (fun n => n.name == "c"), sleepAt := some (fun n => n.name == "x") } }

end Traverse.Demo
