import Verif.Spec.Chain
/-
Vocabulary for C19: a client that dozes until a path is met.
-/
namespace Traverse
variable {κ : Type}

/-- The state of a client that does not want to be bothered until a path is met: its own state, whether the path has been met,
and how many directories and files it was shown before. -/
structure Doze (κ : Type) where
  own : κ
  awake : Bool := false
  dirs : Nat := 0
  files : Nat := 0

/-- Invocation counters less these numbers of directories and files. -/
def Metrics.less (m : Metrics) (d f : Nat) : Metrics
  | .dirsInvoked => (m .dirsInvoked).map (· - d)
  | .filesInvoked => (m .filesInvoked).map (· - f)
  | j => m j

/-- The client `C`, dozing until `target` is met: up to there its handler returns nil without doing anything and its listeners
do not listen (to Wake events they never listen, see C40). Its skip handler and its panic handler are awake; the latter is not
told of calls during the doze. -/
def Client.dozing (C : Client κ) (target : Path) : Client (Doze κ) where
  handler k p :=
    if k.awake || decide (p.node.path = target) then
      let r := C.handler k.own p
      ({ k with own := r.1, awake := true }, r.2)
    else (if p.node.isDir then { k with dirs := k.dirs + 1 } else { k with files := k.files + 1 }, .ok none)
  listen k n := if k.awake && !decide (n.ev = .wake) then { k with own := C.listen k.own n } else k
  skip k n re := let r := C.skip k.own n re; ({ k with own := r.1 }, r.2)
  panics k a := let r := C.panics k.own { a with metrics := a.metrics.less k.dirs k.files }; ({ k with own := r.1 }, r.2)

/-- A handler call for the node at `target`. -/
def Obs.callsAt (target : Path) : Obs → Bool
  | .call n => decide (n.path = target)
  | .note _ => false

/-- A Wake notification. -/
def Obs.isWake : Obs → Bool
  | .note n => decide (n.ev = .wake)
  | .call _ => false

/-- What is seen from the handler call for `target` on, Wake notifications left out. -/
def fromCall (target : Path) (l : List Obs) : List Obs := (l.dropWhile (fun o => !o.callsAt target)).filter (fun o => !o.isWake)

end Traverse
