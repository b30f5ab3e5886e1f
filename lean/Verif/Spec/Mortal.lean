import Verif.Model.Mortal
import Verif.Spec.Observe
/-
Vocabulary for sessions in which any callback may panic.
-/
namespace Traverse
variable {σ : Type}

/-- The same call in the history of a session in which only the handler panics. -/
def Ev.call : Ev → Call
  | .descend p d => .descend p d false
  | .ascend p d => .ascend p d false
  | .invoke n r => .invoke n r
  | .ask n re s e => .ask n re (some (s, e))
  | .rescue n d r => .rescue n d (some r)

namespace Call
/-- The call panicked. -/
def dies : Call → Bool
  | .descend _ _ b | .ascend _ _ b => b
  | .hook _ _ => true
  | .invoke _ r => r = .panic
  | .ask _ _ a => a.isNone
  | .rescue _ _ a => a.isNone

/-- The path of the node the call is about; for a rescue, that of the directory being travelled. -/
def path : Call → Path
  | .descend p _ _ | .ascend p _ _ => p
  | .hook p _ => p
  | .invoke n _ => n.path
  | .ask n _ _ => n.path
  | .rescue n _ _ => n.path

/-- Ascend listeners and the panic handler: what is still called while the navigator backs out. -/
def winding : Call → Bool
  | .ascend .. | .rescue .. => true
  | _ => false

/-- 1 for the call of Descend listeners. -/
def isDescend : Call → Nat
  | .descend .. => 1
  | _ => 0
end Call

/-- No call panicked. -/
def Unhurt (l : List Call) : Prop := ∀ k ∈ l, k.dies = false

/-- The answers of the panic handler, `none` when it panicked itself. -/
def answers (l : List Call) : List (Option Rescue) := l.filterMap fun | .rescue _ _ a => some a | _ => none

/-- Descend calls that returned (`true`) and Ascend calls (`false`). -/
def marks (l : List Call) : List (Path × Bool) :=
  l.filterMap fun | .descend p _ false => some (p, true) | .ascend p _ _ => some (p, false) | _ => none

/-- Every opening mark has its closing mark of the same path, and they are nested. -/
inductive Nested : List (Path × Bool) → Prop
  | nil : Nested []
  | pair (p : Path) {a b : List (Path × Bool)} (ha : Nested a) (hb : Nested b) :
      Nested ((p, true) :: (a ++ (p, false) :: b))

/-- The answers of the same callbacks where they do not panic; some answer where they do. -/
def Mortal.live (M : Mortal σ) : Env σ where
  descend x p d := (M.descend x p d).1
  ascend x p d := (M.ascend x p d).1
  invoke := M.invoke
  ask x n re := let r := M.ask x n re; (r.1, (r.2.getD (.none, none)))
  rescue x n d := let r := M.rescue x n d; (r.1, r.2.getD (.saved ""))

end Traverse
